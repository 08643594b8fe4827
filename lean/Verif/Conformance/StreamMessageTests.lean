import Verif.Conformance.Prelude
import Verif.Model.ByteStream
import Verif.Model.CapabilityInquiry
import Verif.Model.Collector
import Verif.Model.Defaults
import Verif.Model.FlexData
import Verif.Model.Jitter
import Verif.Model.PitchTypes
import Verif.Model.Senders
import Verif.Model.Stream
import Verif.Model.Sysex
import Verif.Model.SysexPackets
import Verif.Model.TextFormat
import Verif.Model.Types
import Verif.Model.UniversalSysex
import Verif.Model.Reentrant

/-!
The expectations of tests/stream_message_tests.cpp about the model. Generated by tools/conformance.
-/

namespace Midi.Conformance

open Midi

-- stream_message,constructors: lines 44-53
example : holds (do
  let x1 := streamDefault
  return (isStreamMessage x1) && decide (4026531840 = ((x1.w0).toNat : Int)) && decide (0 = ((x1.w1).toNat : Int)) &&
    decide (0 = ((x1.w2).toNat : Int)) && decide (0 = ((x1.w3).toNat : Int)) && decide (4 = ((Packet.size x1) : Int))
    && decide (15 = ((Packet.type x1).toNat : Int)) && decide (0 = ((streamFormat x1).code.toNat : Int))) = true := by decide +kernel

-- stream_message,constructors: lines 54-68
example : holds (do
  let x1 := streamDefault
  let x2 := streamMessage 1 .complete
  return decide (0 = ((Packet.status x1).toNat : Int)) && (isStreamMessage x2) && decide (4026597376 = ((x2.w0).toNat
    : Int)) && decide (0 = ((x2.w1).toNat : Int)) && decide (0 = ((x2.w2).toNat : Int)) && decide (0 = ((x2.w3).toNat
    : Int)) && decide (4 = ((Packet.size x2) : Int)) && decide (15 = ((Packet.type x2).toNat : Int))) = true := by decide +kernel

-- stream_message,constructors: lines 69-83
example : holds (do
  let x1 := streamMessage 1 .complete
  let x2 := streamMessage 18 .cont
  return decide (0 = ((streamFormat x1).code.toNat : Int)) && decide (1 = ((Packet.status x1).toNat : Int)) &&
    (isStreamMessage x2) && decide (4161929216 = ((x2.w0).toNat : Int)) && decide (0 = ((x2.w1).toNat : Int)) &&
    decide (0 = ((x2.w2).toNat : Int)) && decide (0 = ((x2.w3).toNat : Int)) && decide (4 = ((Packet.size x2) : Int))) = true := by decide +kernel

-- stream_message,constructors: lines 84-97
example : holds (do
  let x1 := streamMessage 18 .cont
  let x2 := streamMessage 4 .start
  return decide (15 = ((Packet.type x1).toNat : Int)) && decide (2 = ((streamFormat x1).code.toNat : Int)) && decide
    (18 = ((Packet.status x1).toNat : Int)) && (isStreamMessage x2) && decide (4093902848 = ((x2.w0).toNat : Int)) &&
    decide (0 = ((x2.w1).toNat : Int)) && decide (0 = ((x2.w2).toNat : Int)) && decide (0 = ((x2.w3).toNat : Int))) = true := by decide +kernel

-- stream_message,constructors: lines 99-112
example : holds (do
  let x1 := streamMessage 4 .start
  let x2 := streamMessage 3 .fin
  return decide (4 = ((Packet.size x1) : Int)) && decide (15 = ((Packet.type x1).toNat : Int)) && decide (1 =
    ((streamFormat x1).code.toNat : Int)) && decide (4 = ((Packet.status x1).toNat : Int)) && (isStreamMessage x2) &&
    decide (4228055040 = ((x2.w0).toNat : Int)) && decide (0 = ((x2.w1).toNat : Int)) && decide (0 = ((x2.w2).toNat :
    Int))) = true := by decide +kernel

-- stream_message,constructors: lines 113-118
example : holds (do
  let x1 := streamMessage 3 .fin
  return decide (0 = ((x1.w3).toNat : Int)) && decide (4 = ((Packet.size x1) : Int)) && decide (15 = ((Packet.type
    x1).toNat : Int)) && decide (3 = ((streamFormat x1).code.toNat : Int)) && decide (3 = ((Packet.status x1).toNat :
    Int))) = true := by decide +kernel

-- stream_message,set_format: lines 132-141
example : holds (do
  let x1 := streamDefault
  let x2 := streamSetFormat x1 .fin
  return (isStreamMessage x2) && decide (4227858432 = ((x2.w0).toNat : Int)) && decide (0 = ((x2.w1).toNat : Int)) &&
    decide (0 = ((x2.w2).toNat : Int)) && decide (0 = ((x2.w3).toNat : Int)) && decide (4 = ((Packet.size x2) : Int))
    && decide (15 = ((Packet.type x2).toNat : Int)) && decide (3 = ((streamFormat x2).code.toNat : Int))) = true := by decide +kernel

-- stream_message,set_format: line 142
example : holds (do
  let x1 := streamDefault
  let x2 := streamSetFormat x1 .fin
  return decide (0 = ((Packet.status x2).toNat : Int))) = true := by decide +kernel

-- stream_message,endpoint_discovery: lines 155-164
example : holds (do
  let x1 ← makeEndpointDiscovery 31 1 1
  return (isStreamMessage x1) && decide (4026532097 = ((x1.w0).toNat : Int)) && decide (31 = ((x1.w1).toNat : Int)) &&
    decide (0 = ((x1.w2).toNat : Int)) && decide (0 = ((x1.w3).toNat : Int)) && decide (4 = ((Packet.size x1) : Int))
    && decide (15 = ((Packet.type x1).toNat : Int)) && decide (0 = ((streamFormat x1).code.toNat : Int))) = true := by decide +kernel

-- stream_message,endpoint_discovery: lines 165-181
example : holds (do
  let x1 ← makeEndpointDiscovery 31 1 1
  let x2 ← asEndpointDiscovery x1
  let x3 ← streamView 0 x1
  let x4 ← makeEndpointDiscovery 4 2 3
  return decide (0 = ((Packet.status x1).toNat : Int)) && x2.isSome && decide (1 =
    ((EndpointDiscoveryView.umpVersionMajor x3).toNat : Int)) && decide (1 = ((EndpointDiscoveryView.umpVersionMinor
    x3).toNat : Int)) && decide (257 = ((EndpointDiscoveryView.umpVersion x3).toNat : Int)) && decide (31 =
    ((EndpointDiscoveryView.filter x3).toNat : Int)) && (isStreamMessage x4) && decide (4026532355 = ((x4.w0).toNat :
    Int))) = true := by decide +kernel

-- stream_message,endpoint_discovery: lines 182-191
example : holds (do
  let x1 ← makeEndpointDiscovery 4 2 3
  let x2 ← asEndpointDiscovery x1
  return decide (4 = ((x1.w1).toNat : Int)) && decide (0 = ((x1.w2).toNat : Int)) && decide (0 = ((x1.w3).toNat :
    Int)) && decide (4 = ((Packet.size x1) : Int)) && decide (15 = ((Packet.type x1).toNat : Int)) && decide (0 =
    ((streamFormat x1).code.toNat : Int)) && decide (0 = ((Packet.status x1).toNat : Int)) && x2.isSome) = true := by decide +kernel

-- stream_message,endpoint_discovery: lines 194-197
example : holds (do
  let x1 ← makeEndpointDiscovery 4 2 3
  let x2 ← streamView 0 x1
  return decide (2 = ((EndpointDiscoveryView.umpVersionMajor x2).toNat : Int)) && decide (3 =
    ((EndpointDiscoveryView.umpVersionMinor x2).toNat : Int)) && decide (515 = ((EndpointDiscoveryView.umpVersion
    x2).toNat : Int)) && decide (4 = ((EndpointDiscoveryView.filter x2).toNat : Int))) = true := by decide +kernel

-- stream_message,endpoint_discovery_view: lines 211-222
example : holds (do
  let x1 ← makeEndpointDiscovery 4 2 3
  let x2 ← asEndpointDiscovery x1
  let x3 ← streamView 0 x1
  return (isStreamMessage x1) && x2.isSome && decide (2 = ((EndpointDiscoveryView.umpVersionMajor x3).toNat : Int)) &&
    decide (3 = ((EndpointDiscoveryView.umpVersionMinor x3).toNat : Int)) && decide (515 =
    ((EndpointDiscoveryView.umpVersion x3).toNat : Int)) && decide (4 = ((EndpointDiscoveryView.filter x3).toNat :
    Int)) && (!(EndpointDiscoveryView.requestsInfo x3)) && (!(EndpointDiscoveryView.requestsDeviceIdentity x3))) = true := by decide +kernel

-- stream_message,endpoint_discovery_view: lines 223-239
example : holds (do
  let x1 ← makeEndpointDiscovery 4 2 3
  let x2 ← streamView 0 x1
  let x3 ← makeEndpointDiscovery 6 1 1
  let x4 ← asEndpointDiscovery x3
  let x5 ← streamView 0 x3
  return (EndpointDiscoveryView.requestsName x2) && (!(EndpointDiscoveryView.requestsProductInstanceId x2)) &&
    (!(EndpointDiscoveryView.requestsStreamConfiguration x2)) && (isStreamMessage x3) && x4.isSome && decide (1 =
    ((EndpointDiscoveryView.umpVersionMajor x5).toNat : Int)) && decide (1 = ((EndpointDiscoveryView.umpVersionMinor
    x5).toNat : Int)) && decide (257 = ((EndpointDiscoveryView.umpVersion x5).toNat : Int))) = true := by decide +kernel

-- stream_message,endpoint_discovery_view: lines 240-254
example : holds (do
  let x1 ← makeEndpointDiscovery 6 1 1
  let x2 ← streamView 0 x1
  let x3 ← makeEndpointDiscovery 1 1 1
  let x4 ← streamView 0 x3
  return decide (6 = ((EndpointDiscoveryView.filter x2).toNat : Int)) && (!(EndpointDiscoveryView.requestsInfo x2)) &&
    (EndpointDiscoveryView.requestsDeviceIdentity x2) && (EndpointDiscoveryView.requestsName x2) &&
    (!(EndpointDiscoveryView.requestsProductInstanceId x2)) && (!(EndpointDiscoveryView.requestsStreamConfiguration
    x2)) && (EndpointDiscoveryView.requestsInfo x4) && (!(EndpointDiscoveryView.requestsDeviceIdentity x4))) = true := by decide +kernel

-- stream_message,endpoint_discovery_view: lines 255-268
example : holds (do
  let x1 ← makeEndpointDiscovery 1 1 1
  let x2 ← streamView 0 x1
  let x3 ← makeEndpointDiscovery 8 1 1
  let x4 ← streamView 0 x3
  return (!(EndpointDiscoveryView.requestsName x2)) && (!(EndpointDiscoveryView.requestsProductInstanceId x2)) &&
    (!(EndpointDiscoveryView.requestsStreamConfiguration x2)) && (!(EndpointDiscoveryView.requestsInfo x4)) &&
    (!(EndpointDiscoveryView.requestsDeviceIdentity x4)) && (!(EndpointDiscoveryView.requestsName x4)) &&
    (EndpointDiscoveryView.requestsProductInstanceId x4) && (!(EndpointDiscoveryView.requestsStreamConfiguration x4))) = true := by decide +kernel

-- stream_message,endpoint_discovery_view: lines 275-283
example : holds (do
  let x1 ← makeEndpointDiscovery 16 1 1
  let x2 ← streamView 0 x1
  let x3 ← makeEndpointInfo 3 false 3 0 1 1
  let x4 ← asEndpointDiscovery x3
  return (!(EndpointDiscoveryView.requestsInfo x2)) && (!(EndpointDiscoveryView.requestsDeviceIdentity x2)) &&
    (!(EndpointDiscoveryView.requestsName x2)) && (!(EndpointDiscoveryView.requestsProductInstanceId x2)) &&
    (EndpointDiscoveryView.requestsStreamConfiguration x2) && (!x4.isSome)) = true := by decide +kernel

-- stream_message,endpoint_info: lines 296-305
example : holds (do
  let x1 ← makeEndpointInfo 3 false 3 0 1 1
  return (isStreamMessage x1) && decide (4026597633 = ((x1.w0).toNat : Int)) && decide (50332416 = ((x1.w1).toNat :
    Int)) && decide (0 = ((x1.w2).toNat : Int)) && decide (0 = ((x1.w3).toNat : Int)) && decide (4 = ((Packet.size x1)
    : Int)) && decide (15 = ((Packet.type x1).toNat : Int)) && decide (0 = ((streamFormat x1).code.toNat : Int))) = true := by decide +kernel

-- stream_message,endpoint_info: lines 306-316
example : holds (do
  let x1 ← makeEndpointInfo 3 false 3 0 1 1
  let x2 ← asEndpointInfo x1
  let x3 ← streamView 1 x1
  let x4 ← EndpointInfoView.numFunctionBlocks x3
  let x5 ← EndpointInfoView.staticFunctionBlocks x3
  let x6 ← EndpointInfoView.protocols x3
  return decide (1 = ((Packet.status x1).toNat : Int)) && x2.isSome && decide (1 = ((EndpointInfoView.umpVersionMajor
    x3).toNat : Int)) && decide (1 = ((EndpointInfoView.umpVersionMinor x3).toNat : Int)) && decide (257 =
    ((EndpointInfoView.umpVersion x3).toNat : Int)) && decide (3 = (x4.toNat : Int)) && (!x5) && decide (3 = (x6.toNat
    : Int))) = true := by decide +kernel

-- stream_message,endpoint_info: lines 317-331
example : holds (do
  let x1 ← makeEndpointInfo 3 false 3 0 1 1
  let x2 ← streamView 1 x1
  let x3 ← EndpointInfoView.extensions x2
  let x4 ← makeEndpointInfo 1 true 1 2 2 3
  return decide (0 = (x3.toNat : Int)) && (isStreamMessage x4) && decide (4026597891 = ((x4.w0).toNat : Int)) &&
    decide (2164261122 = ((x4.w1).toNat : Int)) && decide (0 = ((x4.w2).toNat : Int)) && decide (0 = ((x4.w3).toNat :
    Int)) && decide (4 = ((Packet.size x4) : Int)) && decide (15 = ((Packet.type x4).toNat : Int))) = true := by decide +kernel

-- stream_message,endpoint_info: lines 332-342
example : holds (do
  let x1 ← makeEndpointInfo 1 true 1 2 2 3
  let x2 ← asEndpointInfo x1
  let x3 ← streamView 1 x1
  let x4 ← EndpointInfoView.numFunctionBlocks x3
  let x5 ← EndpointInfoView.staticFunctionBlocks x3
  return decide (0 = ((streamFormat x1).code.toNat : Int)) && decide (1 = ((Packet.status x1).toNat : Int)) &&
    x2.isSome && decide (2 = ((EndpointInfoView.umpVersionMajor x3).toNat : Int)) && decide (3 =
    ((EndpointInfoView.umpVersionMinor x3).toNat : Int)) && decide (515 = ((EndpointInfoView.umpVersion x3).toNat :
    Int)) && decide (1 = (x4.toNat : Int)) && x5) = true := by decide +kernel

-- stream_message,endpoint_info: lines 343-357
example : holds (do
  let x1 ← makeEndpointInfo 1 true 1 2 2 3
  let x2 ← streamView 1 x1
  let x3 ← EndpointInfoView.protocols x2
  let x4 ← EndpointInfoView.extensions x2
  let x5 ← makeEndpointInfo 0 false 2 1 1 1
  return decide (1 = (x3.toNat : Int)) && decide (2 = (x4.toNat : Int)) && (isStreamMessage x5) && decide (4026597633
    = ((x5.w0).toNat : Int)) && decide (513 = ((x5.w1).toNat : Int)) && decide (0 = ((x5.w2).toNat : Int)) && decide
    (0 = ((x5.w3).toNat : Int)) && decide (4 = ((Packet.size x5) : Int))) = true := by decide +kernel

-- stream_message,endpoint_info: lines 358-368
example : holds (do
  let x1 ← makeEndpointInfo 0 false 2 1 1 1
  let x2 ← asEndpointInfo x1
  let x3 ← streamView 1 x1
  let x4 ← EndpointInfoView.numFunctionBlocks x3
  return decide (15 = ((Packet.type x1).toNat : Int)) && decide (0 = ((streamFormat x1).code.toNat : Int)) && decide
    (1 = ((Packet.status x1).toNat : Int)) && x2.isSome && decide (1 = ((EndpointInfoView.umpVersionMajor x3).toNat :
    Int)) && decide (1 = ((EndpointInfoView.umpVersionMinor x3).toNat : Int)) && decide (257 =
    ((EndpointInfoView.umpVersion x3).toNat : Int)) && decide (0 = (x4.toNat : Int))) = true := by decide +kernel

-- stream_message,endpoint_info: lines 369-371
example : holds (do
  let x1 ← makeEndpointInfo 0 false 2 1 1 1
  let x2 ← streamView 1 x1
  let x3 ← EndpointInfoView.staticFunctionBlocks x2
  let x4 ← EndpointInfoView.protocols x2
  let x5 ← EndpointInfoView.extensions x2
  return (!x3) && decide (2 = (x4.toNat : Int)) && decide (1 = (x5.toNat : Int))) = true := by decide +kernel

-- stream_message,endpoint_info_view: lines 384-394
example : holds (do
  let x1 ← makeEndpointInfo 0 false 2 1 1 1
  let x2 ← asEndpointInfo x1
  let x3 ← streamView 1 x1
  let x4 ← EndpointInfoView.numFunctionBlocks x3
  let x5 ← EndpointInfoView.staticFunctionBlocks x3
  let x6 ← EndpointInfoView.protocols x3
  return (isStreamMessage x1) && x2.isSome && decide (1 = ((EndpointInfoView.umpVersionMajor x3).toNat : Int)) &&
    decide (1 = ((EndpointInfoView.umpVersionMinor x3).toNat : Int)) && decide (257 = ((EndpointInfoView.umpVersion
    x3).toNat : Int)) && decide (0 = (x4.toNat : Int)) && (!x5) && decide (2 = (x6.toNat : Int))) = true := by decide +kernel

-- stream_message,endpoint_info_view: lines 395-410
example : holds (do
  let x1 ← makeEndpointInfo 0 false 2 1 1 1
  let x2 ← streamView 1 x1
  let x3 ← EndpointInfoView.extensions x2
  let x4 ← makeEndpointInfo 4 true 3 3 1 2
  let x5 ← asEndpointInfo x4
  let x6 ← streamView 1 x4
  let x7 ← EndpointInfoView.numFunctionBlocks x6
  let x8 ← EndpointInfoView.staticFunctionBlocks x6
  return decide (1 = (x3.toNat : Int)) && (isStreamMessage x4) && x5.isSome && decide (1 =
    ((EndpointInfoView.umpVersionMajor x6).toNat : Int)) && decide (2 = ((EndpointInfoView.umpVersionMinor x6).toNat :
    Int)) && decide (258 = ((EndpointInfoView.umpVersion x6).toNat : Int)) && decide (4 = (x7.toNat : Int)) && x8) = true := by decide +kernel

-- stream_message,endpoint_info_view: lines 411-416
example : holds (do
  let x1 ← makeEndpointInfo 4 true 3 3 1 2
  let x2 ← streamView 1 x1
  let x3 ← EndpointInfoView.protocols x2
  let x4 ← EndpointInfoView.extensions x2
  let x5 ← makeEndpointDiscovery 3 1 1
  let x6 ← asEndpointInfo x5
  return decide (3 = (x3.toNat : Int)) && decide (3 = (x4.toNat : Int)) && (!x6.isSome)) = true := by decide +kernel

-- stream_message,device_identity: lines 430-439
example : holds (do
  let x1 := makeDeviceIdentityMessage (⟨8457, 5936, 49, 65541⟩ : DeviceIdentity)
  return (isStreamMessage x1) && decide (4026662912 = ((x1.w0).toNat : Int)) && decide (8457 = ((x1.w1).toNat : Int))
    && decide (808333568 = ((x1.w2).toNat : Int)) && decide (83887104 = ((x1.w3).toNat : Int)) && decide (4 =
    ((Packet.size x1) : Int)) && decide (15 = ((Packet.type x1).toNat : Int)) && decide (0 = ((streamFormat
    x1).code.toNat : Int))) = true := by decide +kernel

-- stream_message,device_identity: lines 440-458
example : holds (do
  let x1 := makeDeviceIdentityMessage (⟨8457, 5936, 49, 65541⟩ : DeviceIdentity)
  let x2 ← asDeviceIdentity x1
  let x3 ← streamView 2 x1
  let x4 := makeDeviceIdentityMessage (⟨458752, 9265, 10017, 79837782⟩ : DeviceIdentity)
  return decide (2 = ((Packet.status x1).toNat : Int)) && x2.isSome && decide (((⟨8457, 5936, 49, 65541⟩ :
    DeviceIdentity).manufacturer.toNat : Int) = ((deviceIdentityViewIdentity x3).manufacturer.toNat : Int)) && decide
    (((⟨8457, 5936, 49, 65541⟩ : DeviceIdentity).family.toNat : Int) = ((deviceIdentityViewIdentity x3).family.toNat :
    Int)) && decide (((⟨8457, 5936, 49, 65541⟩ : DeviceIdentity).model.toNat : Int) = ((deviceIdentityViewIdentity
    x3).model.toNat : Int)) && decide (((⟨8457, 5936, 49, 65541⟩ : DeviceIdentity).revision.toNat : Int) =
    ((deviceIdentityViewIdentity x3).revision.toNat : Int)) && (isStreamMessage x4) && decide (4026662912 =
    ((x4.w0).toNat : Int))) = true := by decide +kernel

-- stream_message,device_identity: lines 459-468
example : holds (do
  let x1 := makeDeviceIdentityMessage (⟨458752, 9265, 10017, 79837782⟩ : DeviceIdentity)
  let x2 ← asDeviceIdentity x1
  return decide (458752 = ((x1.w1).toNat : Int)) && decide (826810702 = ((x1.w2).toNat : Int)) && decide (1450444838 =
    ((x1.w3).toNat : Int)) && decide (4 = ((Packet.size x1) : Int)) && decide (15 = ((Packet.type x1).toNat : Int)) &&
    decide (0 = ((streamFormat x1).code.toNat : Int)) && decide (2 = ((Packet.status x1).toNat : Int)) && x2.isSome) = true := by decide +kernel

-- stream_message,device_identity: lines 472-475
example : holds (do
  let x1 := makeDeviceIdentityMessage (⟨458752, 9265, 10017, 79837782⟩ : DeviceIdentity)
  let x2 ← streamView 2 x1
  return decide (((⟨458752, 9265, 10017, 79837782⟩ : DeviceIdentity).manufacturer.toNat : Int) =
    ((deviceIdentityViewIdentity x2).manufacturer.toNat : Int)) && decide (((⟨458752, 9265, 10017, 79837782⟩ :
    DeviceIdentity).family.toNat : Int) = ((deviceIdentityViewIdentity x2).family.toNat : Int)) && decide (((⟨458752,
    9265, 10017, 79837782⟩ : DeviceIdentity).model.toNat : Int) = ((deviceIdentityViewIdentity x2).model.toNat : Int))
    && decide (((⟨458752, 9265, 10017, 79837782⟩ : DeviceIdentity).revision.toNat : Int) =
    ((deviceIdentityViewIdentity x2).revision.toNat : Int))) = true := by decide +kernel

-- stream_message,device_identity_view: lines 489-502
example : holds (do
  let x1 := makeDeviceIdentityMessage (⟨8457, 5936, 49, 65541⟩ : DeviceIdentity)
  let x2 ← asDeviceIdentity x1
  let x3 ← streamView 2 x1
  let x4 ← makeEndpointDiscovery 3 1 1
  let x5 ← asDeviceIdentity x4
  return (isStreamMessage x1) && x2.isSome && decide (((⟨8457, 5936, 49, 65541⟩ : DeviceIdentity).manufacturer.toNat :
    Int) = ((deviceIdentityViewIdentity x3).manufacturer.toNat : Int)) && decide (((⟨8457, 5936, 49, 65541⟩ :
    DeviceIdentity).family.toNat : Int) = ((deviceIdentityViewIdentity x3).family.toNat : Int)) && decide (((⟨8457,
    5936, 49, 65541⟩ : DeviceIdentity).model.toNat : Int) = ((deviceIdentityViewIdentity x3).model.toNat : Int)) &&
    decide (((⟨8457, 5936, 49, 65541⟩ : DeviceIdentity).revision.toNat : Int) = ((deviceIdentityViewIdentity
    x3).revision.toNat : Int)) && (!x5.isSome)) = true := by decide +kernel

-- stream_message,device_identity_consistency: lines 530-533
example : holds (do
  let x1 := makeDeviceIdentityMessage (⟨8457, 0, 0, 0⟩ : DeviceIdentity)
  let x2 ← streamView 2 x1
  let x3 := (⟨8257536, []⟩ : Sysex)
  let x4 ← Sysex.addDeviceIdentity x3 (deviceIdentityViewIdentity x2)
  let x5 ← Sysex.makeDeviceIdentity x4 0
  let x6 ← UniversalSysex.makeIdentityReplyOf (⟨8457, 0, 0, 0⟩ : DeviceIdentity)
  let x7 ← UniversalSysex.makeView x6
  let x8 ← UniversalSysex.IdentityReplyView.identity x7
  let x9 := makeDeviceIdentityMessage (⟨8457, 1489, 0, 0⟩ : DeviceIdentity)
  let x10 ← streamView 2 x9
  let x11 ← Sysex.addDeviceIdentity x3 (deviceIdentityViewIdentity x10)
  let x12 ← Sysex.makeDeviceIdentity x11 0
  let x13 ← UniversalSysex.makeIdentityReplyOf (⟨8457, 1489, 0, 0⟩ : DeviceIdentity)
  let x14 ← UniversalSysex.makeView x13
  let x15 ← UniversalSysex.IdentityReplyView.identity x14
  return decide (((⟨8457, 0, 0, 0⟩ : DeviceIdentity).family.toNat : Int) = ((deviceIdentityViewIdentity
    x2).family.toNat : Int)) && decide (((deviceIdentityViewIdentity x2).family.toNat : Int) = (x5.family.toNat :
    Int)) && decide ((x5.family.toNat : Int) = (x8.family.toNat : Int)) && decide ((x8.family.toNat : Int) = ((⟨8457,
    0, 0, 0⟩ : DeviceIdentity).family.toNat : Int)) && decide (((⟨8457, 1489, 0, 0⟩ : DeviceIdentity).family.toNat :
    Int) = ((deviceIdentityViewIdentity x10).family.toNat : Int)) && decide (((deviceIdentityViewIdentity
    x10).family.toNat : Int) = (x12.family.toNat : Int)) && decide ((x12.family.toNat : Int) = (x15.family.toNat :
    Int)) && decide ((x15.family.toNat : Int) = ((⟨8457, 1489, 0, 0⟩ : DeviceIdentity).family.toNat : Int))) = true := by decide +kernel

-- stream_message,device_identity_consistency: lines 530-533
example : holds (do
  let x1 := (⟨8257536, []⟩ : Sysex)
  let x2 := makeDeviceIdentityMessage (⟨8457, 2978, 0, 0⟩ : DeviceIdentity)
  let x3 ← streamView 2 x2
  let x4 ← Sysex.addDeviceIdentity x1 (deviceIdentityViewIdentity x3)
  let x5 ← Sysex.makeDeviceIdentity x4 0
  let x6 ← UniversalSysex.makeIdentityReplyOf (⟨8457, 2978, 0, 0⟩ : DeviceIdentity)
  let x7 ← UniversalSysex.makeView x6
  let x8 ← UniversalSysex.IdentityReplyView.identity x7
  let x9 := makeDeviceIdentityMessage (⟨8457, 4467, 0, 0⟩ : DeviceIdentity)
  let x10 ← streamView 2 x9
  let x11 ← Sysex.addDeviceIdentity x1 (deviceIdentityViewIdentity x10)
  let x12 ← Sysex.makeDeviceIdentity x11 0
  let x13 ← UniversalSysex.makeIdentityReplyOf (⟨8457, 4467, 0, 0⟩ : DeviceIdentity)
  let x14 ← UniversalSysex.makeView x13
  let x15 ← UniversalSysex.IdentityReplyView.identity x14
  return decide (((⟨8457, 2978, 0, 0⟩ : DeviceIdentity).family.toNat : Int) = ((deviceIdentityViewIdentity
    x3).family.toNat : Int)) && decide (((deviceIdentityViewIdentity x3).family.toNat : Int) = (x5.family.toNat :
    Int)) && decide ((x5.family.toNat : Int) = (x8.family.toNat : Int)) && decide ((x8.family.toNat : Int) = ((⟨8457,
    2978, 0, 0⟩ : DeviceIdentity).family.toNat : Int)) && decide (((⟨8457, 4467, 0, 0⟩ : DeviceIdentity).family.toNat
    : Int) = ((deviceIdentityViewIdentity x10).family.toNat : Int)) && decide (((deviceIdentityViewIdentity
    x10).family.toNat : Int) = (x12.family.toNat : Int)) && decide ((x12.family.toNat : Int) = (x15.family.toNat :
    Int)) && decide ((x15.family.toNat : Int) = ((⟨8457, 4467, 0, 0⟩ : DeviceIdentity).family.toNat : Int))) = true := by decide +kernel

-- stream_message,device_identity_consistency: lines 530-533
example : holds (do
  let x1 := (⟨8257536, []⟩ : Sysex)
  let x2 := makeDeviceIdentityMessage (⟨8457, 5957, 0, 0⟩ : DeviceIdentity)
  let x3 ← streamView 2 x2
  let x4 ← Sysex.addDeviceIdentity x1 (deviceIdentityViewIdentity x3)
  let x5 ← Sysex.makeDeviceIdentity x4 0
  let x6 ← UniversalSysex.makeIdentityReplyOf (⟨8457, 5957, 0, 0⟩ : DeviceIdentity)
  let x7 ← UniversalSysex.makeView x6
  let x8 ← UniversalSysex.IdentityReplyView.identity x7
  let x9 := makeDeviceIdentityMessage (⟨8457, 7446, 0, 0⟩ : DeviceIdentity)
  let x10 ← streamView 2 x9
  let x11 ← Sysex.addDeviceIdentity x1 (deviceIdentityViewIdentity x10)
  let x12 ← Sysex.makeDeviceIdentity x11 0
  let x13 ← UniversalSysex.makeIdentityReplyOf (⟨8457, 7446, 0, 0⟩ : DeviceIdentity)
  let x14 ← UniversalSysex.makeView x13
  let x15 ← UniversalSysex.IdentityReplyView.identity x14
  return decide (((⟨8457, 5957, 0, 0⟩ : DeviceIdentity).family.toNat : Int) = ((deviceIdentityViewIdentity
    x3).family.toNat : Int)) && decide (((deviceIdentityViewIdentity x3).family.toNat : Int) = (x5.family.toNat :
    Int)) && decide ((x5.family.toNat : Int) = (x8.family.toNat : Int)) && decide ((x8.family.toNat : Int) = ((⟨8457,
    5957, 0, 0⟩ : DeviceIdentity).family.toNat : Int)) && decide (((⟨8457, 7446, 0, 0⟩ : DeviceIdentity).family.toNat
    : Int) = ((deviceIdentityViewIdentity x10).family.toNat : Int)) && decide (((deviceIdentityViewIdentity
    x10).family.toNat : Int) = (x12.family.toNat : Int)) && decide ((x12.family.toNat : Int) = (x15.family.toNat :
    Int)) && decide ((x15.family.toNat : Int) = ((⟨8457, 7446, 0, 0⟩ : DeviceIdentity).family.toNat : Int))) = true := by decide +kernel

-- stream_message,device_identity_consistency: lines 542-545
example : holds (do
  let x1 := makeDeviceIdentityMessage (⟨8457, 0, 0, 0⟩ : DeviceIdentity)
  let x2 ← streamView 2 x1
  let x3 := (⟨8257536, []⟩ : Sysex)
  let x4 ← Sysex.addDeviceIdentity x3 (deviceIdentityViewIdentity x2)
  let x5 ← Sysex.makeDeviceIdentity x4 0
  let x6 ← UniversalSysex.makeIdentityReplyOf (⟨8457, 0, 0, 0⟩ : DeviceIdentity)
  let x7 ← UniversalSysex.makeView x6
  let x8 ← UniversalSysex.IdentityReplyView.identity x7
  let x9 := makeDeviceIdentityMessage (⟨8457, 0, 1489, 0⟩ : DeviceIdentity)
  let x10 ← streamView 2 x9
  let x11 ← Sysex.addDeviceIdentity x3 (deviceIdentityViewIdentity x10)
  let x12 ← Sysex.makeDeviceIdentity x11 0
  let x13 ← UniversalSysex.makeIdentityReplyOf (⟨8457, 0, 1489, 0⟩ : DeviceIdentity)
  let x14 ← UniversalSysex.makeView x13
  let x15 ← UniversalSysex.IdentityReplyView.identity x14
  return decide (((⟨8457, 0, 0, 0⟩ : DeviceIdentity).model.toNat : Int) = ((deviceIdentityViewIdentity x2).model.toNat
    : Int)) && decide (((deviceIdentityViewIdentity x2).model.toNat : Int) = (x5.model.toNat : Int)) && decide
    ((x5.model.toNat : Int) = (x8.model.toNat : Int)) && decide ((x8.model.toNat : Int) = ((⟨8457, 0, 0, 0⟩ :
    DeviceIdentity).model.toNat : Int)) && decide (((⟨8457, 0, 1489, 0⟩ : DeviceIdentity).model.toNat : Int) =
    ((deviceIdentityViewIdentity x10).model.toNat : Int)) && decide (((deviceIdentityViewIdentity x10).model.toNat :
    Int) = (x12.model.toNat : Int)) && decide ((x12.model.toNat : Int) = (x15.model.toNat : Int)) && decide
    ((x15.model.toNat : Int) = ((⟨8457, 0, 1489, 0⟩ : DeviceIdentity).model.toNat : Int))) = true := by decide +kernel

-- stream_message,device_identity_consistency: lines 542-545
example : holds (do
  let x1 := (⟨8257536, []⟩ : Sysex)
  let x2 := makeDeviceIdentityMessage (⟨8457, 0, 2978, 0⟩ : DeviceIdentity)
  let x3 ← streamView 2 x2
  let x4 ← Sysex.addDeviceIdentity x1 (deviceIdentityViewIdentity x3)
  let x5 ← Sysex.makeDeviceIdentity x4 0
  let x6 ← UniversalSysex.makeIdentityReplyOf (⟨8457, 0, 2978, 0⟩ : DeviceIdentity)
  let x7 ← UniversalSysex.makeView x6
  let x8 ← UniversalSysex.IdentityReplyView.identity x7
  let x9 := makeDeviceIdentityMessage (⟨8457, 0, 4467, 0⟩ : DeviceIdentity)
  let x10 ← streamView 2 x9
  let x11 ← Sysex.addDeviceIdentity x1 (deviceIdentityViewIdentity x10)
  let x12 ← Sysex.makeDeviceIdentity x11 0
  let x13 ← UniversalSysex.makeIdentityReplyOf (⟨8457, 0, 4467, 0⟩ : DeviceIdentity)
  let x14 ← UniversalSysex.makeView x13
  let x15 ← UniversalSysex.IdentityReplyView.identity x14
  return decide (((⟨8457, 0, 2978, 0⟩ : DeviceIdentity).model.toNat : Int) = ((deviceIdentityViewIdentity
    x3).model.toNat : Int)) && decide (((deviceIdentityViewIdentity x3).model.toNat : Int) = (x5.model.toNat : Int))
    && decide ((x5.model.toNat : Int) = (x8.model.toNat : Int)) && decide ((x8.model.toNat : Int) = ((⟨8457, 0, 2978,
    0⟩ : DeviceIdentity).model.toNat : Int)) && decide (((⟨8457, 0, 4467, 0⟩ : DeviceIdentity).model.toNat : Int) =
    ((deviceIdentityViewIdentity x10).model.toNat : Int)) && decide (((deviceIdentityViewIdentity x10).model.toNat :
    Int) = (x12.model.toNat : Int)) && decide ((x12.model.toNat : Int) = (x15.model.toNat : Int)) && decide
    ((x15.model.toNat : Int) = ((⟨8457, 0, 4467, 0⟩ : DeviceIdentity).model.toNat : Int))) = true := by decide +kernel

-- stream_message,device_identity_consistency: lines 542-545
example : holds (do
  let x1 := (⟨8257536, []⟩ : Sysex)
  let x2 := makeDeviceIdentityMessage (⟨8457, 0, 5957, 0⟩ : DeviceIdentity)
  let x3 ← streamView 2 x2
  let x4 ← Sysex.addDeviceIdentity x1 (deviceIdentityViewIdentity x3)
  let x5 ← Sysex.makeDeviceIdentity x4 0
  let x6 ← UniversalSysex.makeIdentityReplyOf (⟨8457, 0, 5957, 0⟩ : DeviceIdentity)
  let x7 ← UniversalSysex.makeView x6
  let x8 ← UniversalSysex.IdentityReplyView.identity x7
  let x9 := makeDeviceIdentityMessage (⟨8457, 0, 7446, 0⟩ : DeviceIdentity)
  let x10 ← streamView 2 x9
  let x11 ← Sysex.addDeviceIdentity x1 (deviceIdentityViewIdentity x10)
  let x12 ← Sysex.makeDeviceIdentity x11 0
  let x13 ← UniversalSysex.makeIdentityReplyOf (⟨8457, 0, 7446, 0⟩ : DeviceIdentity)
  let x14 ← UniversalSysex.makeView x13
  let x15 ← UniversalSysex.IdentityReplyView.identity x14
  return decide (((⟨8457, 0, 5957, 0⟩ : DeviceIdentity).model.toNat : Int) = ((deviceIdentityViewIdentity
    x3).model.toNat : Int)) && decide (((deviceIdentityViewIdentity x3).model.toNat : Int) = (x5.model.toNat : Int))
    && decide ((x5.model.toNat : Int) = (x8.model.toNat : Int)) && decide ((x8.model.toNat : Int) = ((⟨8457, 0, 5957,
    0⟩ : DeviceIdentity).model.toNat : Int)) && decide (((⟨8457, 0, 7446, 0⟩ : DeviceIdentity).model.toNat : Int) =
    ((deviceIdentityViewIdentity x10).model.toNat : Int)) && decide (((deviceIdentityViewIdentity x10).model.toNat :
    Int) = (x12.model.toNat : Int)) && decide ((x12.model.toNat : Int) = (x15.model.toNat : Int)) && decide
    ((x15.model.toNat : Int) = ((⟨8457, 0, 7446, 0⟩ : DeviceIdentity).model.toNat : Int))) = true := by decide +kernel

-- stream_message,device_identity_consistency: lines 554-557
example : holds (do
  let x1 := makeDeviceIdentityMessage (⟨8457, 0, 0, 0⟩ : DeviceIdentity)
  let x2 ← streamView 2 x1
  let x3 := (⟨8257536, []⟩ : Sysex)
  let x4 ← Sysex.addDeviceIdentity x3 (deviceIdentityViewIdentity x2)
  let x5 ← Sysex.makeDeviceIdentity x4 0
  let x6 ← UniversalSysex.makeIdentityReplyOf (⟨8457, 0, 0, 0⟩ : DeviceIdentity)
  let x7 ← UniversalSysex.makeView x6
  let x8 ← UniversalSysex.IdentityReplyView.identity x7
  let x9 := makeDeviceIdentityMessage (⟨8457, 0, 0, 1126251⟩ : DeviceIdentity)
  let x10 ← streamView 2 x9
  let x11 ← Sysex.addDeviceIdentity x3 (deviceIdentityViewIdentity x10)
  let x12 ← Sysex.makeDeviceIdentity x11 0
  let x13 ← UniversalSysex.makeIdentityReplyOf (⟨8457, 0, 0, 1126251⟩ : DeviceIdentity)
  let x14 ← UniversalSysex.makeView x13
  let x15 ← UniversalSysex.IdentityReplyView.identity x14
  return decide (((⟨8457, 0, 0, 0⟩ : DeviceIdentity).revision.toNat : Int) = ((deviceIdentityViewIdentity
    x2).revision.toNat : Int)) && decide (((deviceIdentityViewIdentity x2).revision.toNat : Int) = (x5.revision.toNat
    : Int)) && decide ((x5.revision.toNat : Int) = (x8.revision.toNat : Int)) && decide ((x8.revision.toNat : Int) =
    ((⟨8457, 0, 0, 0⟩ : DeviceIdentity).revision.toNat : Int)) && decide (((⟨8457, 0, 0, 1126251⟩ :
    DeviceIdentity).revision.toNat : Int) = ((deviceIdentityViewIdentity x10).revision.toNat : Int)) && decide
    (((deviceIdentityViewIdentity x10).revision.toNat : Int) = (x12.revision.toNat : Int)) && decide
    ((x12.revision.toNat : Int) = (x15.revision.toNat : Int)) && decide ((x15.revision.toNat : Int) = ((⟨8457, 0, 0,
    1126251⟩ : DeviceIdentity).revision.toNat : Int))) = true := by decide +kernel

-- stream_message,device_identity_consistency: lines 554-557
example : holds (do
  let x1 := (⟨8257536, []⟩ : Sysex)
  let x2 := makeDeviceIdentityMessage (⟨8457, 0, 0, 2252679⟩ : DeviceIdentity)
  let x3 ← streamView 2 x2
  let x4 ← Sysex.addDeviceIdentity x1 (deviceIdentityViewIdentity x3)
  let x5 ← Sysex.makeDeviceIdentity x4 0
  let x6 ← UniversalSysex.makeIdentityReplyOf (⟨8457, 0, 0, 2252679⟩ : DeviceIdentity)
  let x7 ← UniversalSysex.makeView x6
  let x8 ← UniversalSysex.IdentityReplyView.identity x7
  let x9 := makeDeviceIdentityMessage (⟨8457, 0, 0, 3378930⟩ : DeviceIdentity)
  let x10 ← streamView 2 x9
  let x11 ← Sysex.addDeviceIdentity x1 (deviceIdentityViewIdentity x10)
  let x12 ← Sysex.makeDeviceIdentity x11 0
  let x13 ← UniversalSysex.makeIdentityReplyOf (⟨8457, 0, 0, 3378930⟩ : DeviceIdentity)
  let x14 ← UniversalSysex.makeView x13
  let x15 ← UniversalSysex.IdentityReplyView.identity x14
  return decide (((⟨8457, 0, 0, 2252679⟩ : DeviceIdentity).revision.toNat : Int) = ((deviceIdentityViewIdentity
    x3).revision.toNat : Int)) && decide (((deviceIdentityViewIdentity x3).revision.toNat : Int) = (x5.revision.toNat
    : Int)) && decide ((x5.revision.toNat : Int) = (x8.revision.toNat : Int)) && decide ((x8.revision.toNat : Int) =
    ((⟨8457, 0, 0, 2252679⟩ : DeviceIdentity).revision.toNat : Int)) && decide (((⟨8457, 0, 0, 3378930⟩ :
    DeviceIdentity).revision.toNat : Int) = ((deviceIdentityViewIdentity x10).revision.toNat : Int)) && decide
    (((deviceIdentityViewIdentity x10).revision.toNat : Int) = (x12.revision.toNat : Int)) && decide
    ((x12.revision.toNat : Int) = (x15.revision.toNat : Int)) && decide ((x15.revision.toNat : Int) = ((⟨8457, 0, 0,
    3378930⟩ : DeviceIdentity).revision.toNat : Int))) = true := by decide +kernel

-- stream_message,device_identity_consistency: lines 554-557
example : holds (do
  let x1 := (⟨8257536, []⟩ : Sysex)
  let x2 := makeDeviceIdentityMessage (⟨8457, 0, 0, 4505358⟩ : DeviceIdentity)
  let x3 ← streamView 2 x2
  let x4 ← Sysex.addDeviceIdentity x1 (deviceIdentityViewIdentity x3)
  let x5 ← Sysex.makeDeviceIdentity x4 0
  let x6 ← UniversalSysex.makeIdentityReplyOf (⟨8457, 0, 0, 4505358⟩ : DeviceIdentity)
  let x7 ← UniversalSysex.makeView x6
  let x8 ← UniversalSysex.IdentityReplyView.identity x7
  let x9 := makeDeviceIdentityMessage (⟨8457, 0, 0, 5631786⟩ : DeviceIdentity)
  let x10 ← streamView 2 x9
  let x11 ← Sysex.addDeviceIdentity x1 (deviceIdentityViewIdentity x10)
  let x12 ← Sysex.makeDeviceIdentity x11 0
  let x13 ← UniversalSysex.makeIdentityReplyOf (⟨8457, 0, 0, 5631786⟩ : DeviceIdentity)
  let x14 ← UniversalSysex.makeView x13
  let x15 ← UniversalSysex.IdentityReplyView.identity x14
  return decide (((⟨8457, 0, 0, 4505358⟩ : DeviceIdentity).revision.toNat : Int) = ((deviceIdentityViewIdentity
    x3).revision.toNat : Int)) && decide (((deviceIdentityViewIdentity x3).revision.toNat : Int) = (x5.revision.toNat
    : Int)) && decide ((x5.revision.toNat : Int) = (x8.revision.toNat : Int)) && decide ((x8.revision.toNat : Int) =
    ((⟨8457, 0, 0, 4505358⟩ : DeviceIdentity).revision.toNat : Int)) && decide (((⟨8457, 0, 0, 5631786⟩ :
    DeviceIdentity).revision.toNat : Int) = ((deviceIdentityViewIdentity x10).revision.toNat : Int)) && decide
    (((deviceIdentityViewIdentity x10).revision.toNat : Int) = (x12.revision.toNat : Int)) && decide
    ((x12.revision.toNat : Int) = (x15.revision.toNat : Int)) && decide ((x15.revision.toNat : Int) = ((⟨8457, 0, 0,
    5631786⟩ : DeviceIdentity).revision.toNat : Int))) = true := by decide +kernel

-- stream_message,endpoint_name: lines 571-580
example : holds (do
  let x1 ← makeEndpointName .complete [65, 32, 115, 104, 111, 114, 116, 32, 110, 97, 109, 101]
  return (isStreamMessage x1) && decide (4026745120 = ((x1.w0).toNat : Int)) && decide (1936224114 = ((x1.w1).toNat :
    Int)) && decide (1948282465 = ((x1.w2).toNat : Int)) && decide (1835335680 = ((x1.w3).toNat : Int)) && decide (4 =
    ((Packet.size x1) : Int)) && decide (15 = ((Packet.type x1).toNat : Int)) && decide (0 = ((streamFormat
    x1).code.toNat : Int))) = true := by decide +kernel

-- stream_message,endpoint_name: lines 581-598
example : holds (do
  let x1 ← makeEndpointName .complete [65, 32, 115, 104, 111, 114, 116, 32, 110, 97, 109, 101]
  let x2 ← asEndpointName x1
  let x3 ← streamView 3 x1
  let x4 ← endpointNamePayload x3
  let x5 ← makeEndpointName .start [65, 32, 118, 101, 114, 121, 32, 108, 111, 110, 103, 32, 100, 101]
  return decide (3 = ((Packet.status x1).toNat : Int)) && x2.isSome && decide (0 = ((streamFormat x3).code.toNat :
    Int)) && decide (x4 = [65, 32, 115, 104, 111, 114, 116, 32, 110, 97, 109, 101]) && decide (4093853984 =
    ((x5.w0).toNat : Int)) && decide (1986359929 = ((x5.w1).toNat : Int)) && decide (543977326 = ((x5.w2).toNat :
    Int)) && decide (1730176101 = ((x5.w3).toNat : Int))) = true := by decide +kernel

-- stream_message,endpoint_name: lines 600-615
example : holds (do
  let x1 ← makeEndpointName .start [65, 32, 118, 101, 114, 121, 32, 108, 111, 110, 103, 32, 100, 101]
  let x2 ← asEndpointName x1
  let x3 ← streamView 3 x1
  let x4 ← endpointNamePayload x3
  let x5 ← makeEndpointName .cont [118, 105, 99, 101, 32, 110, 97, 109, 101, 32, 105, 110, 32, 116]
  return decide (4 = ((Packet.size x1) : Int)) && decide (15 = ((Packet.type x1).toNat : Int)) && decide (1 =
    ((streamFormat x1).code.toNat : Int)) && decide (3 = ((Packet.status x1).toNat : Int)) && x2.isSome && decide (1 =
    ((streamFormat x3).code.toNat : Int)) && decide (x4 = [65, 32, 118, 101, 114, 121, 32, 108, 111, 110, 103, 32,
    100, 101]) && (isStreamMessage x5)) = true := by decide +kernel

-- stream_message,endpoint_name: lines 617-625
example : holds (do
  let x1 ← makeEndpointName .cont [118, 105, 99, 101, 32, 110, 97, 109, 101, 32, 105, 110, 32, 116]
  return decide (4160976489 = ((x1.w0).toNat : Int)) && decide (1667571822 = ((x1.w1).toNat : Int)) && decide
    (1634559264 = ((x1.w2).toNat : Int)) && decide (1768824948 = ((x1.w3).toNat : Int)) && decide (4 = ((Packet.size
    x1) : Int)) && decide (15 = ((Packet.type x1).toNat : Int)) && decide (2 = ((streamFormat x1).code.toNat : Int))
    && decide (3 = ((Packet.status x1).toNat : Int))) = true := by decide +kernel

-- stream_message,endpoint_name: lines 627-642
example : holds (do
  let x1 ← makeEndpointName .cont [118, 105, 99, 101, 32, 110, 97, 109, 101, 32, 105, 110, 32, 116]
  let x2 ← asEndpointName x1
  let x3 ← streamView 3 x1
  let x4 ← endpointNamePayload x3
  let x5 ← makeEndpointName .fin [104, 114, 101, 101, 32, 112, 97, 99, 107, 101, 116, 115]
  return x2.isSome && decide (2 = ((streamFormat x3).code.toNat : Int)) && decide (x4 = [118, 105, 99, 101, 32, 110,
    97, 109, 101, 32, 105, 110, 32, 116]) && (isStreamMessage x5) && decide (4228081778 = ((x5.w0).toNat : Int)) &&
    decide (1701126256 = ((x5.w1).toNat : Int)) && decide (1633905509 = ((x5.w2).toNat : Int)) && decide (1953693696 =
    ((x5.w3).toNat : Int))) = true := by decide +kernel

-- stream_message,endpoint_name: lines 644-653
example : holds (do
  let x1 ← makeEndpointName .fin [104, 114, 101, 101, 32, 112, 97, 99, 107, 101, 116, 115]
  let x2 ← asEndpointName x1
  let x3 ← streamView 3 x1
  let x4 ← endpointNamePayload x3
  return decide (4 = ((Packet.size x1) : Int)) && decide (15 = ((Packet.type x1).toNat : Int)) && decide (3 =
    ((streamFormat x1).code.toNat : Int)) && decide (3 = ((Packet.status x1).toNat : Int)) && x2.isSome && decide (3 =
    ((streamFormat x3).code.toNat : Int)) && decide (x4 = [104, 114, 101, 101, 32, 112, 97, 99, 107, 101, 116, 115])) = true := by decide +kernel

-- stream_message,endpoint_name_view: lines 666-684
example : holds (do
  let x1 ← makeEndpointName .cont [118, 105, 99, 101, 32, 110, 97, 109, 101, 32, 105, 110, 32, 116]
  let x2 ← asEndpointName x1
  let x3 ← streamView 3 x1
  let x4 ← endpointNamePayload x3
  let x5 ← makeEndpointName .complete [65, 32, 78, 97, 109, 101]
  let x6 ← asEndpointName x5
  let x7 ← streamView 3 x5
  let x8 ← endpointNamePayload x7
  return (isStreamMessage x1) && x2.isSome && decide (2 = ((streamFormat x3).code.toNat : Int)) && decide (x4 = [118,
    105, 99, 101, 32, 110, 97, 109, 101, 32, 105, 110, 32, 116]) && (isStreamMessage x5) && x6.isSome && decide (0 =
    ((streamFormat x5).code.toNat : Int)) && decide (x8 = [65, 32, 78, 97, 109, 101])) = true := by decide +kernel

-- stream_message,endpoint_name_view: line 688
example : holds (do
  let x1 ← makeEndpointInfo 4 true 3 3 1 2
  let x2 ← asEndpointName x1
  return (!x2.isSome)) = true := by decide +kernel

-- stream_message,product_instance_id: lines 730-739
example : holds (do
  let x1 ← makeProductInstanceId .complete [49, 52, 65, 68, 52, 67, 53, 72, 69, 53, 69, 65, 57, 70]
  return (isStreamMessage x1) && decide (4026806580 = ((x1.w0).toNat : Int)) && decide (1094988867 = ((x1.w1).toNat :
    Int)) && decide (893928757 = ((x1.w2).toNat : Int)) && decide (1161902406 = ((x1.w3).toNat : Int)) && decide (4 =
    ((Packet.size x1) : Int)) && decide (15 = ((Packet.type x1).toNat : Int)) && decide (0 = ((streamFormat
    x1).code.toNat : Int))) = true := by decide +kernel

-- stream_message,product_instance_id: lines 740-756
example : holds (do
  let x1 ← makeProductInstanceId .complete [49, 52, 65, 68, 52, 67, 53, 72, 69, 53, 69, 65, 57, 70]
  let x2 ← asProductInstanceId x1
  let x3 ← streamView 4 x1
  let x4 ← productInstanceIdPayload x3
  return decide (4 = ((Packet.status x1).toNat : Int)) && x2.isSome && decide (0 = ((streamFormat x3).code.toNat :
    Int)) && decide (x4 = [49, 52, 65, 68, 52, 67, 53, 72, 69, 53, 69, 65, 57, 70]) && (isStreamMessage x1) && decide
    (4026806580 = ((x1.w0).toNat : Int)) && decide (1094988867 = ((x1.w1).toNat : Int)) && decide (893928757 =
    ((x1.w2).toNat : Int))) = true := by decide +kernel

-- stream_message,product_instance_id: lines 757-762
example : holds (do
  let x1 ← makeProductInstanceId .complete [49, 52, 65, 68, 52, 67, 53, 72, 69, 53, 69, 65, 57, 70]
  return decide (1161902406 = ((x1.w3).toNat : Int)) && decide (4 = ((Packet.size x1) : Int)) && decide (15 =
    ((Packet.type x1).toNat : Int)) && decide (0 = ((streamFormat x1).code.toNat : Int)) && decide (4 =
    ((Packet.status x1).toNat : Int))) = true := by decide +kernel

-- stream_message,product_instance_id_view: lines 776-794
example : holds (do
  let x1 ← makeProductInstanceId .complete [49, 52, 65, 68, 52, 67, 53, 72, 69, 53, 69, 65, 57, 70]
  let x2 ← asProductInstanceId x1
  let x3 ← streamView 4 x1
  let x4 ← productInstanceIdPayload x3
  let x5 ← makeProductInstanceId .complete [65, 66, 67, 68, 69]
  let x6 ← asProductInstanceId x5
  let x7 ← streamView 4 x5
  let x8 ← productInstanceIdPayload x7
  return (isStreamMessage x1) && x2.isSome && decide (0 = ((streamFormat x3).code.toNat : Int)) && decide (x4 = [49,
    52, 65, 68, 52, 67, 53, 72, 69, 53, 69, 65, 57, 70]) && (isStreamMessage x5) && x6.isSome && decide (0 =
    ((streamFormat x7).code.toNat : Int)) && decide (x8 = [65, 66, 67, 68, 69])) = true := by decide +kernel

-- stream_message,product_instance_id_view: line 798
example : holds (do
  let x1 ← makeEndpointName .cont [118, 105, 99, 101, 32, 110, 97, 109, 101, 32, 105, 110, 32, 116]
  let x2 ← asProductInstanceId x1
  return (!x2.isSome)) = true := by decide +kernel

-- stream_message,stream_configuration_request: lines 840-849
example : holds (do
  let x1 ← makeStreamConfigurationRequest 2 0
  return (isStreamMessage x1) && decide (4026860032 = ((x1.w0).toNat : Int)) && decide (0 = ((x1.w1).toNat : Int)) &&
    decide (0 = ((x1.w2).toNat : Int)) && decide (0 = ((x1.w3).toNat : Int)) && decide (4 = ((Packet.size x1) : Int))
    && decide (15 = ((Packet.type x1).toNat : Int)) && decide (5 = ((Packet.status x1).toNat : Int))) = true := by decide +kernel

-- stream_message,stream_configuration_request: lines 851-867
example : holds (do
  let x1 ← makeStreamConfigurationRequest 2 0
  let x2 ← asStreamConfiguration x1
  let x3 ← streamConfigurationView x1
  let x4 ← makeStreamConfigurationRequest 1 2
  return x2.isSome && decide (2 = ((StreamConfigurationView.protocol x3).toNat : Int)) && decide (0 =
    ((StreamConfigurationView.extensions x3).toNat : Int)) && (isStreamMessage x4) && decide (4026859778 =
    ((x4.w0).toNat : Int)) && decide (0 = ((x4.w1).toNat : Int)) && decide (0 = ((x4.w2).toNat : Int)) && decide (0 =
    ((x4.w3).toNat : Int))) = true := by decide +kernel

-- stream_message,stream_configuration_request: lines 869-886
example : holds (do
  let x1 ← makeStreamConfigurationRequest 1 2
  let x2 ← asStreamConfiguration x1
  let x3 ← streamConfigurationView x1
  let x4 ← makeStreamConfigurationRequest 2 3
  return decide (4 = ((Packet.size x1) : Int)) && decide (15 = ((Packet.type x1).toNat : Int)) && decide (5 =
    ((Packet.status x1).toNat : Int)) && x2.isSome && decide (1 = ((StreamConfigurationView.protocol x3).toNat : Int))
    && decide (2 = ((StreamConfigurationView.extensions x3).toNat : Int)) && (isStreamMessage x4) && decide
    (4026860035 = ((x4.w0).toNat : Int))) = true := by decide +kernel

-- stream_message,stream_configuration_request: lines 887-898
example : holds (do
  let x1 ← makeStreamConfigurationRequest 2 3
  let x2 ← asStreamConfiguration x1
  let x3 ← streamConfigurationView x1
  return decide (0 = ((x1.w1).toNat : Int)) && decide (0 = ((x1.w2).toNat : Int)) && decide (0 = ((x1.w3).toNat :
    Int)) && decide (4 = ((Packet.size x1) : Int)) && decide (15 = ((Packet.type x1).toNat : Int)) && decide (5 =
    ((Packet.status x1).toNat : Int)) && x2.isSome && decide (2 = ((StreamConfigurationView.protocol x3).toNat : Int))) = true := by decide +kernel

-- stream_message,stream_configuration_request: lines 899-903
example : holds (do
  let x1 ← makeStreamConfigurationRequest 2 3
  let x2 ← streamConfigurationView x1
  let x3 ← makeEndpointName .cont [118, 105, 99, 101, 32, 110, 97, 109, 101, 32, 105, 110, 32, 116]
  let x4 ← asEndpointInfo x3
  return decide (3 = ((StreamConfigurationView.extensions x2).toNat : Int)) && (!x4.isSome)) = true := by decide +kernel

-- stream_message,stream_configuration_request_view: lines 917-936
example : holds (do
  let x1 ← makeStreamConfigurationRequest 1 2
  let x2 ← asStreamConfiguration x1
  let x3 ← streamConfigurationView x1
  let x4 ← makeStreamConfigurationRequest 2 1
  let x5 ← asStreamConfiguration x4
  let x6 ← streamConfigurationView x4
  return (isStreamMessage x1) && x2.isSome && decide (1 = ((StreamConfigurationView.protocol x3).toNat : Int)) &&
    decide (2 = ((StreamConfigurationView.extensions x3).toNat : Int)) && (isStreamMessage x4) && x5.isSome && decide
    (2 = ((StreamConfigurationView.protocol x6).toNat : Int)) && decide (1 = ((StreamConfigurationView.extensions
    x6).toNat : Int))) = true := by decide +kernel

-- stream_message,stream_configuration_request_view: line 940
example : holds (do
  let x1 ← makeEndpointName .cont [118, 105, 99, 101, 32, 110, 97, 109, 101, 32, 105, 110, 32, 116]
  let x2 ← asStreamConfiguration x1
  return (!x2.isSome)) = true := by decide +kernel

-- stream_message,make_stream_configuration_notification: lines 953-962
example : holds (do
  let x1 ← makeStreamConfigurationNotification 1 0
  return (isStreamMessage x1) && decide (4026925312 = ((x1.w0).toNat : Int)) && decide (0 = ((x1.w1).toNat : Int)) &&
    decide (0 = ((x1.w2).toNat : Int)) && decide (0 = ((x1.w3).toNat : Int)) && decide (4 = ((Packet.size x1) : Int))
    && decide (15 = ((Packet.type x1).toNat : Int)) && decide (6 = ((Packet.status x1).toNat : Int))) = true := by decide +kernel

-- stream_message,make_stream_configuration_notification: lines 964-980
example : holds (do
  let x1 ← makeStreamConfigurationNotification 1 0
  let x2 ← asStreamConfiguration x1
  let x3 ← streamConfigurationView x1
  let x4 ← makeStreamConfigurationNotification 2 1
  return x2.isSome && decide (1 = ((StreamConfigurationView.protocol x3).toNat : Int)) && decide (0 =
    ((StreamConfigurationView.extensions x3).toNat : Int)) && (isStreamMessage x4) && decide (4026925569 =
    ((x4.w0).toNat : Int)) && decide (0 = ((x4.w1).toNat : Int)) && decide (0 = ((x4.w2).toNat : Int)) && decide (0 =
    ((x4.w3).toNat : Int))) = true := by decide +kernel

-- stream_message,make_stream_configuration_notification: lines 982-990
example : holds (do
  let x1 ← makeStreamConfigurationNotification 2 1
  let x2 ← asStreamConfiguration x1
  let x3 ← streamConfigurationView x1
  return decide (4 = ((Packet.size x1) : Int)) && decide (15 = ((Packet.type x1).toNat : Int)) && decide (6 =
    ((Packet.status x1).toNat : Int)) && x2.isSome && decide (2 = ((StreamConfigurationView.protocol x3).toNat : Int))
    && decide (1 = ((StreamConfigurationView.extensions x3).toNat : Int))) = true := by decide +kernel

-- stream_message,make_stream_configuration_notification_view: lines 1004-1022
example : holds (do
  let x1 ← makeStreamConfigurationNotification 2 1
  let x2 ← asStreamConfiguration x1
  let x3 ← streamConfigurationView x1
  let x4 ← makeStreamConfigurationNotification 1 0
  let x5 ← asStreamConfiguration x4
  let x6 ← streamConfigurationView x4
  return (isStreamMessage x1) && x2.isSome && decide (2 = ((StreamConfigurationView.protocol x3).toNat : Int)) &&
    decide (1 = ((StreamConfigurationView.extensions x3).toNat : Int)) && (isStreamMessage x4) && x5.isSome && decide
    (1 = ((StreamConfigurationView.protocol x6).toNat : Int)) && decide (0 = ((StreamConfigurationView.extensions
    x6).toNat : Int))) = true := by decide +kernel

-- stream_message,make_stream_configuration_notification_view: line 1026
example : holds (do
  let x1 := Packet.ofWords [1090519040]
  let x2 ← asStreamConfiguration x1
  return (!x2.isSome)) = true := by decide +kernel

-- stream_message,function_block_discovery: lines 1040-1049
example : holds (do
  let x1 ← makeFunctionBlockDiscovery 255 3
  return (isStreamMessage x1) && decide (4027645699 = ((x1.w0).toNat : Int)) && decide (0 = ((x1.w1).toNat : Int)) &&
    decide (0 = ((x1.w2).toNat : Int)) && decide (0 = ((x1.w3).toNat : Int)) && decide (4 = ((Packet.size x1) : Int))
    && decide (15 = ((Packet.type x1).toNat : Int)) && decide (0 = ((streamFormat x1).code.toNat : Int))) = true := by decide +kernel

-- stream_message,function_block_discovery: lines 1050-1066
example : holds (do
  let x1 ← makeFunctionBlockDiscovery 255 3
  let x2 ← asFunctionBlockDiscovery x1
  let x3 ← streamView 16 x1
  let x4 ← makeFunctionBlockDiscovery 5 2
  return decide (16 = ((Packet.status x1).toNat : Int)) && x2.isSome && decide (255 =
    ((FunctionBlockDiscoveryView.functionBlock x3).toNat : Int)) && decide (3 = ((FunctionBlockDiscoveryView.filter
    x3).toNat : Int)) && (isStreamMessage x4) && decide (4027581698 = ((x4.w0).toNat : Int)) && decide (0 =
    ((x4.w1).toNat : Int)) && decide (0 = ((x4.w2).toNat : Int))) = true := by decide +kernel

-- stream_message,function_block_discovery: lines 1067-1078
example : holds (do
  let x1 ← makeFunctionBlockDiscovery 5 2
  let x2 ← asFunctionBlockDiscovery x1
  let x3 ← streamView 16 x1
  return decide (0 = ((x1.w3).toNat : Int)) && decide (4 = ((Packet.size x1) : Int)) && decide (15 = ((Packet.type
    x1).toNat : Int)) && decide (0 = ((streamFormat x1).code.toNat : Int)) && decide (16 = ((Packet.status x1).toNat :
    Int)) && x2.isSome && decide (5 = ((FunctionBlockDiscoveryView.functionBlock x3).toNat : Int)) && decide (2 =
    ((FunctionBlockDiscoveryView.filter x3).toNat : Int))) = true := by decide +kernel

-- stream_message,function_block_discovery_view: lines 1092-1103
example : holds (do
  let x1 ← makeFunctionBlockDiscovery 5 2
  let x2 ← asFunctionBlockDiscovery x1
  let x3 ← streamView 16 x1
  return (isStreamMessage x1) && x2.isSome && decide (5 = ((FunctionBlockDiscoveryView.functionBlock x3).toNat : Int))
    && decide (2 = ((FunctionBlockDiscoveryView.filter x3).toNat : Int)) &&
    (!(FunctionBlockDiscoveryView.requestsFunctionBlock x3 0)) && (FunctionBlockDiscoveryView.requestsFunctionBlock x3
    5) && (FunctionBlockDiscoveryView.requestsName x3) && (!(FunctionBlockDiscoveryView.requestsInfo x3))) = true := by decide +kernel

-- stream_message,function_block_discovery_view: lines 1110-1121
example : holds (do
  let x1 ← makeFunctionBlockDiscovery 14 1
  let x2 ← asFunctionBlockDiscovery x1
  let x3 ← streamView 16 x1
  return (isStreamMessage x1) && x2.isSome && decide (14 = ((FunctionBlockDiscoveryView.functionBlock x3).toNat :
    Int)) && decide (1 = ((FunctionBlockDiscoveryView.filter x3).toNat : Int)) &&
    (!(FunctionBlockDiscoveryView.requestsFunctionBlock x3 0)) && (!(FunctionBlockDiscoveryView.requestsFunctionBlock
    x3 5)) && (FunctionBlockDiscoveryView.requestsFunctionBlock x3 14) && (!(FunctionBlockDiscoveryView.requestsName
    x3))) = true := by decide +kernel

-- stream_message,function_block_discovery_view: lines 1122-1137
example : holds (do
  let x1 ← makeFunctionBlockDiscovery 14 1
  let x2 ← streamView 16 x1
  let x3 ← makeFunctionBlockDiscovery 255 3
  return (FunctionBlockDiscoveryView.requestsInfo x2) && (isStreamMessage x3) && decide (4027645699 = ((x3.w0).toNat :
    Int)) && decide (0 = ((x3.w1).toNat : Int)) && decide (0 = ((x3.w2).toNat : Int)) && decide (0 = ((x3.w3).toNat :
    Int)) && decide (4 = ((Packet.size x3) : Int)) && decide (15 = ((Packet.type x3).toNat : Int))) = true := by decide +kernel

-- stream_message,function_block_discovery_view: lines 1138-1149
example : holds (do
  let x1 ← makeFunctionBlockDiscovery 255 3
  let x2 ← asFunctionBlockDiscovery x1
  let x3 ← streamView 16 x1
  return decide (0 = ((streamFormat x1).code.toNat : Int)) && decide (16 = ((Packet.status x1).toNat : Int)) &&
    x2.isSome && decide (255 = ((FunctionBlockDiscoveryView.functionBlock x3).toNat : Int)) && decide (3 =
    ((FunctionBlockDiscoveryView.filter x3).toNat : Int)) && (FunctionBlockDiscoveryView.requestsFunctionBlock x3 0)
    && (FunctionBlockDiscoveryView.requestsFunctionBlock x3 2) && (FunctionBlockDiscoveryView.requestsFunctionBlock x3
    5)) = true := by decide +kernel

-- stream_message,function_block_discovery_view: lines 1149-1156
example : holds (do
  let x1 ← makeFunctionBlockDiscovery 255 3
  let x2 ← streamView 16 x1
  let x3 ← makeStreamConfigurationRequest 2 0
  let x4 ← asFunctionBlockDiscovery x3
  return (FunctionBlockDiscoveryView.requestsFunctionBlock x2 8) && (FunctionBlockDiscoveryView.requestsFunctionBlock
    x2 11) && (FunctionBlockDiscoveryView.requestsFunctionBlock x2 14) && (FunctionBlockDiscoveryView.requestsName x2)
    && (FunctionBlockDiscoveryView.requestsInfo x2) && (!x4.isSome)) = true := by decide +kernel

-- stream_message,function_block_info: lines 1169-1178
example : holds (do
  let x1 ← makeFunctionBlockInfo 1 3 4 5
  return (isStreamMessage x1) && decide (4027679027 = ((x1.w0).toNat : Int)) && decide (67436544 = ((x1.w1).toNat :
    Int)) && decide (0 = ((x1.w2).toNat : Int)) && decide (0 = ((x1.w3).toNat : Int)) && decide (4 = ((Packet.size x1)
    : Int)) && decide (15 = ((Packet.type x1).toNat : Int)) && decide (0 = ((streamFormat x1).code.toNat : Int))) = true := by decide +kernel

-- stream_message,function_block_info: lines 1179-1189
example : holds (do
  let x1 ← makeFunctionBlockInfo 1 3 4 5
  let x2 ← asFunctionBlockInfo x1
  let x3 ← streamView 17 x1
  let x4 ← FunctionBlockInfoView.functionBlock x3
  let x5 ← FunctionBlockInfoView.firstGroup x3
  return decide (17 = ((Packet.status x1).toNat : Int)) && x2.isSome && (FunctionBlockInfoView.active x3) && decide (1
    = (x4.toNat : Int)) && decide (3 = ((FunctionBlockInfoView.direction x3).toNat : Int)) && decide (0 =
    ((FunctionBlockInfoView.midi1 x3).toNat : Int)) && decide (3 = ((FunctionBlockInfoView.uiHint x3).toNat : Int)) &&
    decide (4 = (x5.toNat : Int))) = true := by decide +kernel

-- stream_message,function_block_info: lines 1190-1203
example : holds (do
  let x1 ← makeFunctionBlockInfo 1 3 4 5
  let x2 ← streamView 17 x1
  let x3 ← FunctionBlockInfoView.numGroupsSpanned x2
  let x4 ← FunctionBlockInfoView.ciMessageVersion x2
  let x5 ← FunctionBlockInfoView.maxNumSysex8Streams x2
  let x6 ← makeFunctionBlockInfo 8 1 6 4
  return decide (5 = (x3.toNat : Int)) && decide (0 = (x4.toNat : Int)) && decide (0 = (x5.toNat : Int)) &&
    (isStreamMessage x6) && decide (4027680785 = ((x6.w0).toNat : Int)) && decide (100925440 = ((x6.w1).toNat : Int))
    && decide (0 = ((x6.w2).toNat : Int)) && decide (0 = ((x6.w3).toNat : Int))) = true := by decide +kernel

-- stream_message,function_block_info: lines 1205-1215
example : holds (do
  let x1 ← makeFunctionBlockInfo 8 1 6 4
  let x2 ← asFunctionBlockInfo x1
  let x3 ← streamView 17 x1
  let x4 ← FunctionBlockInfoView.functionBlock x3
  return decide (4 = ((Packet.size x1) : Int)) && decide (15 = ((Packet.type x1).toNat : Int)) && decide (0 =
    ((streamFormat x1).code.toNat : Int)) && decide (17 = ((Packet.status x1).toNat : Int)) && x2.isSome &&
    (FunctionBlockInfoView.active x3) && decide (8 = (x4.toNat : Int)) && decide (1 =
    ((FunctionBlockInfoView.direction x3).toNat : Int))) = true := by decide +kernel

-- stream_message,function_block_info: lines 1216-1237
example : holds (do
  let x1 ← makeFunctionBlockInfo 8 1 6 4
  let x2 ← streamView 17 x1
  let x3 ← FunctionBlockInfoView.firstGroup x2
  let x4 ← FunctionBlockInfoView.numGroupsSpanned x2
  let x5 ← FunctionBlockInfoView.ciMessageVersion x2
  let x6 ← FunctionBlockInfoView.maxNumSysex8Streams x2
  let x7 := ({ active := true, direction := 1, midi1 := 2, uiHint := 1, ciMessageVersion := 2, maxNumSysex8Streams :=
    4 } : FunctionBlockOptions)
  let x8 ← makeFunctionBlockInfoWith 4 x7 3 1
  return decide (0 = ((FunctionBlockInfoView.midi1 x2).toNat : Int)) && decide (1 = ((FunctionBlockInfoView.uiHint
    x2).toNat : Int)) && decide (6 = (x3.toNat : Int)) && decide (4 = (x4.toNat : Int)) && decide (0 = (x5.toNat :
    Int)) && decide (0 = (x6.toNat : Int)) && (isStreamMessage x8) && decide (4027679769 = ((x8.w0).toNat : Int))) = true := by decide +kernel

-- stream_message,function_block_info: lines 1238-1247
example : holds (do
  let x1 := ({ active := true, direction := 1, midi1 := 2, uiHint := 1, ciMessageVersion := 2, maxNumSysex8Streams :=
    4 } : FunctionBlockOptions)
  let x2 ← makeFunctionBlockInfoWith 4 x1 3 1
  let x3 ← asFunctionBlockInfo x2
  return decide (50397700 = ((x2.w1).toNat : Int)) && decide (0 = ((x2.w2).toNat : Int)) && decide (0 = ((x2.w3).toNat
    : Int)) && decide (4 = ((Packet.size x2) : Int)) && decide (15 = ((Packet.type x2).toNat : Int)) && decide (0 =
    ((streamFormat x2).code.toNat : Int)) && decide (17 = ((Packet.status x2).toNat : Int)) && x3.isSome) = true := by decide +kernel

-- stream_message,function_block_info: lines 1250-1257
example : holds (do
  let x1 := ({ active := true, direction := 1, midi1 := 2, uiHint := 1, ciMessageVersion := 2, maxNumSysex8Streams :=
    4 } : FunctionBlockOptions)
  let x2 ← makeFunctionBlockInfoWith 4 x1 3 1
  let x3 ← streamView 17 x2
  let x4 ← FunctionBlockInfoView.functionBlock x3
  let x5 ← FunctionBlockInfoView.firstGroup x3
  let x6 ← FunctionBlockInfoView.numGroupsSpanned x3
  let x7 ← FunctionBlockInfoView.ciMessageVersion x3
  let x8 ← FunctionBlockInfoView.maxNumSysex8Streams x3
  return (FunctionBlockInfoView.active x3) && decide (4 = (x4.toNat : Int)) && decide (1 =
    ((FunctionBlockInfoView.direction x3).toNat : Int)) && decide (2 = ((FunctionBlockInfoView.midi1 x3).toNat : Int))
    && decide (3 = (x5.toNat : Int)) && decide (1 = (x6.toNat : Int)) && decide (2 = (x7.toNat : Int)) && decide (4 =
    (x8.toNat : Int))) = true := by decide +kernel

-- stream_message,function_block_info: lines 1271-1280
example : holds (do
  let x1 := ({ active := false, direction := 2, midi1 := 1, uiHint := 0, ciMessageVersion := 1, maxNumSysex8Streams :=
    2 } : FunctionBlockOptions)
  let x2 ← makeFunctionBlockInfoWith 7 x1 8 3
  return (isStreamMessage x2) && decide (4027647782 = ((x2.w0).toNat : Int)) && decide (134414594 = ((x2.w1).toNat :
    Int)) && decide (0 = ((x2.w2).toNat : Int)) && decide (0 = ((x2.w3).toNat : Int)) && decide (4 = ((Packet.size x2)
    : Int)) && decide (15 = ((Packet.type x2).toNat : Int)) && decide (0 = ((streamFormat x2).code.toNat : Int))) = true := by decide +kernel

-- stream_message,function_block_info: lines 1281-1291
example : holds (do
  let x1 := ({ active := false, direction := 2, midi1 := 1, uiHint := 0, ciMessageVersion := 1, maxNumSysex8Streams :=
    2 } : FunctionBlockOptions)
  let x2 ← makeFunctionBlockInfoWith 7 x1 8 3
  let x3 ← asFunctionBlockInfo x2
  let x4 ← streamView 17 x2
  let x5 ← FunctionBlockInfoView.functionBlock x4
  let x6 ← FunctionBlockInfoView.firstGroup x4
  let x7 ← FunctionBlockInfoView.numGroupsSpanned x4
  return decide (17 = ((Packet.status x2).toNat : Int)) && x3.isSome && (!(FunctionBlockInfoView.active x4)) && decide
    (7 = (x5.toNat : Int)) && decide (2 = ((FunctionBlockInfoView.direction x4).toNat : Int)) && decide (1 =
    ((FunctionBlockInfoView.midi1 x4).toNat : Int)) && decide (8 = (x6.toNat : Int)) && decide (3 = (x7.toNat : Int))) = true := by decide +kernel

-- stream_message,function_block_info: lines 1292-1314
example : holds (do
  let x1 := ({ active := false, direction := 2, midi1 := 1, uiHint := 0, ciMessageVersion := 1, maxNumSysex8Streams :=
    2 } : FunctionBlockOptions)
  let x2 ← makeFunctionBlockInfoWith 7 x1 8 3
  let x3 ← streamView 17 x2
  let x4 ← FunctionBlockInfoView.ciMessageVersion x3
  let x5 ← FunctionBlockInfoView.maxNumSysex8Streams x3
  let x6 := ({ active := true, direction := 3, midi1 := 0, uiHint := 2, ciMessageVersion := 3, maxNumSysex8Streams :=
    0 } : FunctionBlockOptions)
  let x7 ← makeFunctionBlockInfoWith 31 x6 14 2
  return decide (1 = (x4.toNat : Int)) && decide (2 = (x5.toNat : Int)) && (isStreamMessage x7) && decide (4027686691
    = ((x7.w0).toNat : Int)) && decide (235012864 = ((x7.w1).toNat : Int)) && decide (0 = ((x7.w2).toNat : Int)) &&
    decide (0 = ((x7.w3).toNat : Int)) && decide (4 = ((Packet.size x7) : Int))) = true := by decide +kernel

-- stream_message,function_block_info: lines 1315-1325
example : holds (do
  let x1 := ({ active := true, direction := 3, midi1 := 0, uiHint := 2, ciMessageVersion := 3, maxNumSysex8Streams :=
    0 } : FunctionBlockOptions)
  let x2 ← makeFunctionBlockInfoWith 31 x1 14 2
  let x3 ← asFunctionBlockInfo x2
  let x4 ← streamView 17 x2
  let x5 ← FunctionBlockInfoView.functionBlock x4
  return decide (15 = ((Packet.type x2).toNat : Int)) && decide (0 = ((streamFormat x2).code.toNat : Int)) && decide
    (17 = ((Packet.status x2).toNat : Int)) && x3.isSome && (FunctionBlockInfoView.active x4) && decide (31 =
    (x5.toNat : Int)) && decide (3 = ((FunctionBlockInfoView.direction x4).toNat : Int)) && decide (0 =
    ((FunctionBlockInfoView.midi1 x4).toNat : Int))) = true := by decide +kernel

-- stream_message,function_block_info: lines 1326-1329
example : holds (do
  let x1 := ({ active := true, direction := 3, midi1 := 0, uiHint := 2, ciMessageVersion := 3, maxNumSysex8Streams :=
    0 } : FunctionBlockOptions)
  let x2 ← makeFunctionBlockInfoWith 31 x1 14 2
  let x3 ← streamView 17 x2
  let x4 ← FunctionBlockInfoView.firstGroup x3
  let x5 ← FunctionBlockInfoView.numGroupsSpanned x3
  let x6 ← FunctionBlockInfoView.ciMessageVersion x3
  let x7 ← FunctionBlockInfoView.maxNumSysex8Streams x3
  return decide (14 = (x4.toNat : Int)) && decide (2 = (x5.toNat : Int)) && decide (3 = (x6.toNat : Int)) && decide (0
    = (x7.toNat : Int))) = true := by decide +kernel

-- stream_message,function_block_info_view: lines 1350-1360
example : holds (do
  let x1 := ({ active := false, direction := 2, midi1 := 1, uiHint := 0, ciMessageVersion := 1, maxNumSysex8Streams :=
    2 } : FunctionBlockOptions)
  let x2 ← makeFunctionBlockInfoWith 7 x1 8 3
  let x3 ← asFunctionBlockInfo x2
  let x4 ← streamView 17 x2
  let x5 ← FunctionBlockInfoView.functionBlock x4
  let x6 ← FunctionBlockInfoView.firstGroup x4
  let x7 ← FunctionBlockInfoView.numGroupsSpanned x4
  return (isStreamMessage x2) && x3.isSome && (!(FunctionBlockInfoView.active x4)) && decide (7 = (x5.toNat : Int)) &&
    decide (2 = ((FunctionBlockInfoView.direction x4).toNat : Int)) && decide (1 = ((FunctionBlockInfoView.midi1
    x4).toNat : Int)) && decide (8 = (x6.toNat : Int)) && decide (3 = (x7.toNat : Int))) = true := by decide +kernel

-- stream_message,function_block_info_view: lines 1361-1384
example : holds (do
  let x1 := ({ active := false, direction := 2, midi1 := 1, uiHint := 0, ciMessageVersion := 1, maxNumSysex8Streams :=
    2 } : FunctionBlockOptions)
  let x2 ← makeFunctionBlockInfoWith 7 x1 8 3
  let x3 ← streamView 17 x2
  let x4 ← FunctionBlockInfoView.ciMessageVersion x3
  let x5 ← FunctionBlockInfoView.maxNumSysex8Streams x3
  let x6 := ({ active := true, direction := 1, midi1 := 2, uiHint := 0, ciMessageVersion := 2, maxNumSysex8Streams :=
    4 } : FunctionBlockOptions)
  let x7 ← makeFunctionBlockInfoWith 4 x6 14 2
  let x8 ← asFunctionBlockInfo x7
  let x9 ← streamView 17 x7
  let x10 ← FunctionBlockInfoView.functionBlock x9
  return decide (1 = (x4.toNat : Int)) && decide (2 = (x5.toNat : Int)) && (isStreamMessage x7) && x8.isSome &&
    (FunctionBlockInfoView.active x9) && decide (4 = (x10.toNat : Int)) && decide (1 =
    ((FunctionBlockInfoView.direction x9).toNat : Int)) && decide (2 = ((FunctionBlockInfoView.midi1 x9).toNat : Int))) = true := by decide +kernel

-- stream_message,function_block_info_view: lines 1385-1392
example : holds (do
  let x1 := ({ active := true, direction := 1, midi1 := 2, uiHint := 0, ciMessageVersion := 2, maxNumSysex8Streams :=
    4 } : FunctionBlockOptions)
  let x2 ← makeFunctionBlockInfoWith 4 x1 14 2
  let x3 ← streamView 17 x2
  let x4 ← FunctionBlockInfoView.firstGroup x3
  let x5 ← FunctionBlockInfoView.numGroupsSpanned x3
  let x6 ← FunctionBlockInfoView.ciMessageVersion x3
  let x7 ← FunctionBlockInfoView.maxNumSysex8Streams x3
  let x8 ← makeStreamConfigurationRequest 2 0
  let x9 ← asFunctionBlockInfo x8
  return decide (14 = (x4.toNat : Int)) && decide (2 = (x5.toNat : Int)) && decide (2 = (x6.toNat : Int)) && decide (4
    = (x7.toNat : Int)) && (!x9.isSome)) = true := by decide +kernel

-- stream_message,function_block_name: lines 1405-1414
example : holds (do
  let x1 ← makeFunctionBlockName .complete 5 [77, 97, 105, 110]
  return (isStreamMessage x1) && decide (4027712845 = ((x1.w0).toNat : Int)) && decide (1634299392 = ((x1.w1).toNat :
    Int)) && decide (0 = ((x1.w2).toNat : Int)) && decide (0 = ((x1.w3).toNat : Int)) && decide (4 = ((Packet.size x1)
    : Int)) && decide (15 = ((Packet.type x1).toNat : Int)) && decide (0 = ((streamFormat x1).code.toNat : Int))) = true := by decide +kernel

-- stream_message,function_block_name: lines 1415-1431
example : holds (do
  let x1 ← makeFunctionBlockName .complete 5 [77, 97, 105, 110]
  let x2 ← asFunctionBlockName x1
  let x3 ← streamView 18 x1
  let x4 ← functionBlockNamePayload x3
  let x5 ← makeFunctionBlockName .start 10 [83, 116, 97, 114, 116, 32, 111, 102, 32, 78, 97, 109, 101]
  return decide (18 = ((Packet.status x1).toNat : Int)) && x2.isSome && decide (x4 = [77, 97, 105, 110]) &&
    (isStreamMessage x5) && decide (4094822995 = ((x5.w0).toNat : Int)) && decide (1952543348 = ((x5.w1).toNat : Int))
    && decide (544171552 = ((x5.w2).toNat : Int)) && decide (1315007845 = ((x5.w3).toNat : Int))) = true := by decide +kernel

-- stream_message,function_block_name: lines 1433-1441
example : holds (do
  let x1 ← makeFunctionBlockName .start 10 [83, 116, 97, 114, 116, 32, 111, 102, 32, 78, 97, 109, 101]
  let x2 ← asFunctionBlockName x1
  let x3 ← streamView 18 x1
  let x4 ← functionBlockNamePayload x3
  return decide (4 = ((Packet.size x1) : Int)) && decide (15 = ((Packet.type x1).toNat : Int)) && decide (1 =
    ((streamFormat x1).code.toNat : Int)) && decide (18 = ((Packet.status x1).toNat : Int)) && x2.isSome && decide (x4
    = [83, 116, 97, 114, 116, 32, 111, 102, 32, 78, 97, 109, 101])) = true := by decide +kernel

-- stream_message,function_block_name_view: lines 1454-1472
example : holds (do
  let x1 ← makeFunctionBlockName .complete 5 [77, 97, 105, 110]
  let x2 ← asFunctionBlockName x1
  let x3 ← streamView 18 x1
  let x4 ← functionBlockNamePayload x3
  let x5 ← makeFunctionBlockName .start 10 [83, 116, 97, 114, 116, 32, 111, 102, 32, 78, 97, 109, 101]
  let x6 ← asFunctionBlockName x5
  let x7 ← streamView 18 x5
  return (isStreamMessage x1) && x2.isSome && decide (0 = ((streamFormat x3).code.toNat : Int)) && decide (5 =
    ((functionBlockNameBlock x3).toNat : Int)) && decide (x4 = [77, 97, 105, 110]) && (isStreamMessage x5) &&
    x6.isSome && decide (1 = ((streamFormat x7).code.toNat : Int))) = true := by decide +kernel

-- stream_message,function_block_name_view: lines 1473-1478
example : holds (do
  let x1 ← makeFunctionBlockName .start 10 [83, 116, 97, 114, 116, 32, 111, 102, 32, 78, 97, 109, 101]
  let x2 ← streamView 18 x1
  let x3 ← functionBlockNamePayload x2
  let x4 ← makeFunctionBlockDiscovery 14 4
  let x5 ← asFunctionBlockName x4
  return decide (10 = ((functionBlockNameBlock x2).toNat : Int)) && decide (x3 = [83, 116, 97, 114, 116, 32, 111, 102,
    32, 78, 97, 109, 101]) && (!x5.isSome)) = true := by decide +kernel

end Midi.Conformance
