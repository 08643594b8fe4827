import Verif.Model.UniversalSysex

/-!
# MIDI-CI messages

Models inc/midi/capability_inquiry.h and src/capability_inquiry.cpp. A `ci::message` is a sysex message, a view is a
reference to one (see `Verif.Model.UniversalSysex`). Default arguments are not modelled: every argument is explicit.
Strings are lists of bytes.
-/

namespace Midi.CI
open UniversalSysex

/-- `ci::broadcast_muid` (inc/midi/capability_inquiry.h 97). -/
def broadcastMuid : Word := 0x0FFFFFFF

/-- The twelve bytes built by `message::message` and `message::make_with_payload_size` (src/capability_inquiry.cpp 36-47,
62-73); `ci::version` is 2. -/
def headerBytes (subtype : Byte) (source dest : Word) (deviceId : Byte) : List Byte :=
  [deviceId, 0x0D, subtype, 2,
   (source &&& 0x7F).setWidth 8, ((source >>> 7) &&& 0x7F).setWidth 8,
   ((source >>> 14) &&& 0x7F).setWidth 8, ((source >>> 21) &&& 0x7F).setWidth 8,
   (dest &&& 0x7F).setWidth 8, ((dest >>> 7) &&& 0x7F).setWidth 8,
   ((dest >>> 14) &&& 0x7F).setWidth 8, ((dest >>> 21) &&& 0x7F).setWidth 8]

/-- `message::message(subtype, source_muid, destination_muid, device_id)` (src/capability_inquiry.cpp 34-53). -/
def makeMessage (subtype : Byte) (source dest : Word) (deviceId : Byte) : Except Fault Sysex := do
  let s : Sysex := ⟨universalNonRealtime, headerBytes subtype source dest deviceId⟩
  assert (subtype ≤ 127)
  assert (source ≤ 268435455)
  assert (dest ≤ 268435455)
  assert (deviceId ≤ 127)
  return s

/-- `message::make_with_payload_size(payload_size, subtype, source_muid, destination_muid, device_id)`
(src/capability_inquiry.cpp 57-77). `payload_size` only reserves memory and is left out. -/
def makeWithPayload (subtype : Byte) (source dest : Word) (deviceId : Byte) : Except Fault Sysex :=
  Sysex.addData ⟨universalNonRealtime, []⟩ (headerBytes subtype source dest deviceId)

/-- `v[i] = b` for a `std::vector<uint8_t>`: writing at or behind the end is a fault. -/
def store (s : Sysex) (i : Nat) (b : Byte) : Except Fault Sysex :=
  if i < s.data.length then .ok { s with data := s.data.set i b } else .error .outOfBounds

namespace Message

/-- `message::message_version()` (inc/midi/capability_inquiry.h 989-992). -/
def messageVersion (s : Sysex) : Except Fault Byte := index s.data 3

/-- `message::source_muid()` (inc/midi/capability_inquiry.h 994-997). -/
def sourceMuid (s : Sysex) : Except Fault Word := s.makeUint28 4

/-- `message::destination_muid()` (inc/midi/capability_inquiry.h 999-1002). -/
def destinationMuid (s : Sysex) : Except Fault Word := s.makeUint28 8

/-- `message::set_source_muid(m)` (src/capability_inquiry.cpp 81-89). -/
def setSourceMuid (s : Sysex) (m : Word) : Except Fault Sysex := do
  assert (m ≤ 268435455)
  let s ← store s 4 ((m &&& 0x7F).setWidth 8)
  let s ← store s 5 (((m >>> 7) &&& 0x7F).setWidth 8)
  let s ← store s 6 (((m >>> 14) &&& 0x7F).setWidth 8)
  store s 7 (((m >>> 21) &&& 0x7F).setWidth 8)

/-- `message::set_destination_muid(m)` (src/capability_inquiry.cpp 93-101). -/
def setDestinationMuid (s : Sysex) (m : Word) : Except Fault Sysex := do
  assert (m ≤ 268435455)
  let s ← store s 8 ((m &&& 0x7F).setWidth 8)
  let s ← store s 9 (((m >>> 7) &&& 0x7F).setWidth 8)
  let s ← store s 10 (((m >>> 14) &&& 0x7F).setWidth 8)
  store s 11 (((m >>> 21) &&& 0x7F).setWidth 8)

end Message

/-- `sx.manufacturerID == manufacturer::universal_non_realtime`, the first condition of most `validate` functions. -/
def isNonRealtime (s : Sysex) : Except Fault Bool := .ok (s.manufacturerID == universalNonRealtime)

/-- `sx.data.size() >= n`. -/
def sizeAtLeast (s : Sysex) (n : Nat) : Except Fault Bool := .ok (decide (n ≤ s.data.length))

/-- `sx.data.size() >= n + length`, where `length` is read from the message. -/
def sizeAtLeast14 (s : Sysex) (n pos : Nat) : Except Fault Bool :=
  (s.makeUint14 pos).map fun l => decide (n + l.toNat ≤ s.data.length)

/-! ## The base view -/

/-- `is_capability_inquiry_message(sx)` and `capability_inquiry_view::validate(sx)` (inc/midi/capability_inquiry.h
2541-2545, 2576-2579). -/
def View.validate (s : Sysex) : Except Fault Bool :=
  isNonRealtime s &&! sizeAtLeast s 12 &&! dataAt s 1 (· == 0x0D)

/-- `capability_inquiry_view::capability_inquiry_view(sx)` (inc/midi/capability_inquiry.h 2550-2559): the assertions of
the base class and of the view itself. All MIDI-CI views use this constructor. -/
def makeView (s : Sysex) : Except Fault Sysex := do
  let s ← UniversalSysex.makeView s
  assert (← View.validate s)
  return s

/-- `as<view>(sx)` (inc/midi/capability_inquiry.h 974-987) and `message_view::as`, `message_view::make_optional`
(inc/midi/universal_sysex.h 112-128) for the view with the given `validate` function, and with `View.validate` also
`as_capability_inquiry_view(sx)` (inc/midi/capability_inquiry.h 2581-2587). -/
def asView (validate : Sysex → Except Fault Bool) (s : Sysex) : Except Fault (Option Sysex) := do
  if ← validate s then return some (← makeView s) else return none

namespace View

/-- `capability_inquiry_view::message_version()` (inc/midi/capability_inquiry.h 2561-2564). -/
def messageVersion (s : Sysex) : Except Fault Byte := index s.data 3

/-- `capability_inquiry_view::source_muid()` (inc/midi/capability_inquiry.h 2566-2569). -/
def sourceMuid (s : Sysex) : Except Fault Word := s.makeUint28 4

/-- `capability_inquiry_view::destination_muid()` (inc/midi/capability_inquiry.h 2571-2574). -/
def destinationMuid (s : Sysex) : Except Fault Word := s.makeUint28 8

end View

/-! ## Discovery -/

namespace Discovery

/-- `discovery::make_discovery_message_v1` (inc/midi/capability_inquiry.h 1012-1025). -/
def makeMessageV1 (subtype : Byte) (source dest : Word) (i : DeviceIdentity) (categories : Byte) (maxSize : Word) :
    Except Fault Sysex := do
  let s ← makeWithPayload subtype source dest 0x7F
  let s ← s.addDeviceIdentity i
  let s ← s.addUint7 categories
  let s ← s.addUint28 maxSize
  store s 3 1

/-- `discovery::make_discovery_message` (inc/midi/capability_inquiry.h 1027-1041). -/
def makeMessage (subtype : Byte) (source dest : Word) (i : DeviceIdentity) (categories : Byte) (maxSize : Word)
    (outputPathId : Byte) : Except Fault Sysex := do
  let s ← makeWithPayload subtype source dest 0x7F
  let s ← s.addDeviceIdentity i
  let s ← s.addUint7 categories
  let s ← s.addUint28 maxSize
  s.addUint7 outputPathId

/-- `discovery::message_view::identity()` (inc/midi/capability_inquiry.h 1052-1055). -/
def identity (s : Sysex) : Except Fault DeviceIdentity := s.makeDeviceIdentity 12

/-- `discovery::message_view::categories()` (inc/midi/capability_inquiry.h 1057-1060). -/
def categories (s : Sysex) : Except Fault Byte := index s.data 23

/-- `discovery::message_view::maximum_message_size()` (inc/midi/capability_inquiry.h 1062-1065). -/
def maximumMessageSize (s : Sysex) : Except Fault Word := s.makeUint28 24

/-- `discovery::message_view::output_path_id()` (inc/midi/capability_inquiry.h 1067-1070). -/
def outputPathId (s : Sysex) : Except Fault Byte := do
  if (← View.messageVersion s) ≥ 2 then index s.data 28 else return 0

end Discovery

/-- `discovery_inquiry_view::validate(sx)` (inc/midi/capability_inquiry.h 1072-1077). The size comparison reads
`data[3]` before anything is known about the size. -/
def DiscoveryInquiryView.validate (s : Sysex) : Except Fault Bool :=
  isNonRealtime s &&!
    ((index s.data 3).map fun v => decide (28 + (if v > 1 then 1 else 0) ≤ s.data.length)) &&!
    dataAt s 1 (· == 0x0D) &&! dataAt s 2 (· == 0x70)

/-- `make_discovery_inquiry_v1` (inc/midi/capability_inquiry.h 1079-1086). -/
def makeDiscoveryInquiryV1 (source : Word) (i : DeviceIdentity) (categories : Byte) (maxSize : Word) :
    Except Fault Sysex := Discovery.makeMessageV1 0x70 source broadcastMuid i categories maxSize

/-- `make_discovery_inquiry` (inc/midi/capability_inquiry.h 1088-1093). -/
def makeDiscoveryInquiry (source : Word) (i : DeviceIdentity) (categories : Byte) (maxSize : Word)
    (outputPathId : Byte) : Except Fault Sysex :=
  Discovery.makeMessage 0x70 source broadcastMuid i categories maxSize outputPathId

/-- `discovery_reply_view::function_block()` (inc/midi/capability_inquiry.h 1102-1105). -/
def DiscoveryReplyView.functionBlock (s : Sysex) : Except Fault Byte := do
  if (← View.messageVersion s) ≥ 2 then index s.data 29 else return 0x7F

/-- `discovery_reply_view::validate(sx)` (inc/midi/capability_inquiry.h 1107-1112). -/
def DiscoveryReplyView.validate (s : Sysex) : Except Fault Bool :=
  isNonRealtime s &&!
    ((index s.data 3).map fun v => decide (28 + (if v > 1 then 2 else 0) ≤ s.data.length)) &&!
    dataAt s 1 (· == 0x0D) &&! dataAt s 2 (· == 0x71)

/-- `make_discovery_reply_v1` (inc/midi/capability_inquiry.h 1114-1119). -/
def makeDiscoveryReplyV1 (source dest : Word) (i : DeviceIdentity) (categories : Byte) (maxSize : Word) :
    Except Fault Sysex := Discovery.makeMessageV1 0x71 source dest i categories maxSize

/-- `make_discovery_reply` (inc/midi/capability_inquiry.h 1121-1133). -/
def makeDiscoveryReply (source dest : Word) (i : DeviceIdentity) (categories : Byte) (maxSize : Word)
    (outputPathId functionBlock : Byte) : Except Fault Sysex := do
  let s ← Discovery.makeMessage 0x71 source dest i categories maxSize outputPathId
  s.addUint7 functionBlock

/-! ## Endpoint information -/

/-- `endpoint_information_inquiry_view::status()` (inc/midi/capability_inquiry.h 1142-1145). -/
def EndpointInformationInquiryView.status (s : Sysex) : Except Fault Byte := index s.data 12

/-- `endpoint_information_inquiry_view::validate(sx)` (inc/midi/capability_inquiry.h 1147-1152). -/
def EndpointInformationInquiryView.validate (s : Sysex) : Except Fault Bool :=
  isNonRealtime s &&! sizeAtLeast s 13 &&! dataAt s 1 (· == 0x0D) &&! dataAt s 2 (· == 0x72)

/-- `make_endpoint_information_inquiry` (inc/midi/capability_inquiry.h 1154-1160). -/
def makeEndpointInformationInquiry (source dest : Word) (status : Byte) : Except Fault Sysex := do
  let s ← makeWithPayload 0x72 source dest 0x7F
  s.addUint7 status

/-- `endpoint_information_reply_view::status()` (inc/midi/capability_inquiry.h 1171-1174). -/
def EndpointInformationReplyView.status (s : Sysex) : Except Fault Byte := index s.data 12

/-- `endpoint_information_reply_view::information_data_length()` (inc/midi/capability_inquiry.h 1176-1179). -/
def EndpointInformationReplyView.dataLength (s : Sysex) : Except Fault U16 := s.makeUint14 13

/-- The bytes between `information_data()` and `information_data() + information_data_length()`
(inc/midi/capability_inquiry.h 1181-1184). -/
def EndpointInformationReplyView.data (s : Sysex) : Except Fault (List Byte) := do
  slice s 15 (← dataLength s).toNat

/-- `endpoint_information_reply_view::validate(sx)` (inc/midi/capability_inquiry.h 1186-1193). -/
def EndpointInformationReplyView.validate (s : Sysex) : Except Fault Bool :=
  isNonRealtime s &&! sizeAtLeast s 15 &&! sizeAtLeast14 s 15 13 &&! dataAt s 1 (· == 0x0D) &&! dataAt s 2 (· == 0x73)

/-- `make_endpoint_information_reply` (inc/midi/capability_inquiry.h 1195-1204). -/
def makeEndpointInformationReply (source dest : Word) (status : Byte) (data : List Byte) : Except Fault Sysex := do
  let m ← makeWithPayload 0x73 source dest 0x7F
  let m ← m.addUint7 status
  let m ← m.addUint14 (BitVec.ofNat 16 data.length)
  return { m with data := m.data ++ data }

/-! ## ACK and NAK -/

/-- The five bytes of the argument `details` of the ACK and NAK factories (inc/midi/capability_inquiry.h 1264-1271). -/
structure Details where
  d0 : Byte
  d1 : Byte
  d2 : Byte
  d3 : Byte
  d4 : Byte
deriving DecidableEq, Repr

/-- The bytes of `Details`. -/
def Details.bytes (d : Details) : List Byte := [d.d0, d.d1, d.d2, d.d3, d.d4]

namespace Nack

/-- `nack::view::transaction()` (inc/midi/capability_inquiry.h 1218-1221). -/
def transaction (s : Sysex) : Except Fault Byte := index s.data 12

/-- `nack::view::status_code()` (inc/midi/capability_inquiry.h 1223-1226). -/
def statusCode (s : Sysex) : Except Fault Byte := index s.data 13

/-- `nack::view::status_data()` (inc/midi/capability_inquiry.h 1228-1231). -/
def statusData (s : Sysex) : Except Fault Byte := index s.data 14

/-- The five bytes at `nack::view::details()` (inc/midi/capability_inquiry.h 1233-1236). -/
def details (s : Sysex) : Except Fault (List Byte) := slice s 15 5

/-- `nack::view::message_length()` (inc/midi/capability_inquiry.h 1238-1241). -/
def messageLength (s : Sysex) : Except Fault U16 := s.makeUint14 20

/-- The text `nack::view::message()`, which is the same range as `message_data()` and `message_length()`
(inc/midi/capability_inquiry.h 1243-1251). -/
def message (s : Sysex) : Except Fault (List Byte) := do slice s 22 (← messageLength s).toNat

end Nack

/-- `ack_view::validate(sx)` (inc/midi/capability_inquiry.h 1255-1261). -/
def AckView.validate (s : Sysex) : Except Fault Bool :=
  isNonRealtime s &&! sizeAtLeast s 22 &&! sizeAtLeast14 s 22 20 &&! dataAt s 1 (· == 0x0D) &&! dataAt s 2 (· == 0x7D)

/-- `make_ack_message` (inc/midi/capability_inquiry.h 1264-1279). -/
def makeAck (source dest : Word) (deviceId transaction statusCode statusData : Byte) (details : Details)
    (msg : List Byte) : Except Fault Sysex := do
  let m ← makeWithPayload 0x7D source dest deviceId
  let m : Sysex := { m with data := m.data ++ ([transaction, statusCode, statusData] ++ details.bytes) }
  let m ← m.addUint14 (BitVec.ofNat 16 msg.length)
  return { m with data := m.data ++ msg }

/-- `nak_view::validate(sx)` (inc/midi/capability_inquiry.h 1283-1289). -/
def NakView.validate (s : Sysex) : Except Fault Bool :=
  isNonRealtime s &&! sizeAtLeast s 22 &&! sizeAtLeast14 s 22 20 &&! dataAt s 1 (· == 0x0D) &&!
    dataAt s 2 (· == 0x7F) &&! dataAt s 3 (fun v => decide (v ≥ 2))

/-- `make_nak_message_v1(source_muid, destination_muid, device_id)` (inc/midi/capability_inquiry.h 1291-1296). -/
def makeNakV1 (source dest : Word) (deviceId : Byte) : Except Fault Sysex := do
  let s ← makeMessage 0x7F source dest deviceId
  store s 3 1

/-- `make_nak_message_v1(r)` (inc/midi/capability_inquiry.h 1298-1303). -/
def makeNakV1For (r : Sysex) : Except Fault Sysex := do
  let s ← makeMessage 0x7F (← View.destinationMuid r) (← View.sourceMuid r) (← UniversalSysex.View.deviceId r)
  store s 3 1

/-- `make_nak_message(source_muid, …)` (inc/midi/capability_inquiry.h 1305-1320). -/
def makeNak (source dest : Word) (deviceId transaction statusCode statusData : Byte) (details : Details)
    (msg : List Byte) : Except Fault Sysex := do
  let m ← makeWithPayload 0x7F source dest deviceId
  let m : Sysex := { m with data := m.data ++ ([transaction, statusCode, statusData] ++ details.bytes) }
  let m ← m.addUint14 (BitVec.ofNat 16 msg.length)
  return { m with data := m.data ++ msg }

/-- `make_nak_message(r, …)` (inc/midi/capability_inquiry.h 1322-1335). -/
def makeNakFor (r : Sysex) (statusCode statusData : Byte) (details : Details) (msg : List Byte) :
    Except Fault Sysex := do
  let transaction ← UniversalSysex.View.subtype r
  let m ← makeWithPayload 0x7F (← View.destinationMuid r) (← View.sourceMuid r) (← UniversalSysex.View.deviceId r)
  let m : Sysex := { m with data := m.data ++ ([transaction, statusCode, statusData] ++ details.bytes) }
  let m ← m.addUint14 (BitVec.ofNat 16 msg.length)
  return { m with data := m.data ++ msg }

/-! ## Invalidate MUID -/

/-- `invalidate_muid_view::validate(sx)` (inc/midi/capability_inquiry.h 1344-1349). -/
def InvalidateMuidView.validate (s : Sysex) : Except Fault Bool :=
  (typeOf s).map (· == 0x7E0D) &&! (subtypeOf s).map (· == 0x7E) &&! sizeAtLeast s 16

/-- `invalidate_muid_view::target_muid()` (inc/midi/capability_inquiry.h 1351-1354). -/
def InvalidateMuidView.targetMuid (s : Sysex) : Except Fault Word := s.makeUint28 12

/-- `make_invalidate_muid_message` (inc/midi/capability_inquiry.h 1356-1361). -/
def makeInvalidateMuid (source target : Word) : Except Fault Sysex := do
  let m ← makeWithPayload 0x7E source broadcastMuid 0x7F
  m.addUint28 target

/-! ## Profile configuration -/

/-- `struct profile_id` (inc/midi/capability_inquiry.h 360-371, 1371-1378). -/
structure ProfileId where
  b1 : Byte := 0x7E
  b2 : Byte := 0
  b3 : Byte := 0
  b4 : Byte := 0
  b5 : Byte := 0
deriving DecidableEq, Repr, Inhabited

/-- The five bytes of a profile id in memory, from `&p.byte1`. -/
def ProfileId.bytes (p : ProfileId) : List Byte := [p.b1, p.b2, p.b3, p.b4, p.b5]

/-- `operator==(profile_id, profile_id)` (inc/midi/capability_inquiry.h 1380-1384). -/
def ProfileId.eqv (a b : ProfileId) : Bool :=
  a.b1 == b.b1 && a.b2 == b.b2 && a.b3 == b.b3 && a.b4 == b.b4 && a.b5 == b.b5

/-- `struct profile_destination` (inc/midi/capability_inquiry.h 374-381). -/
structure ProfileDestination where
  scope : Byte := 0x7F
  numChannels : U16 := 0
deriving DecidableEq, Repr, Inhabited

/-- `channel_profile(first_channel, num_channels)` (inc/midi/capability_inquiry.h 383-386). -/
def channelProfile (first : Byte) (num : U16 := 1) : ProfileDestination := ⟨first, num⟩

/-- `group_profile` (inc/midi/capability_inquiry.h 387). -/
def groupProfile : ProfileDestination := ⟨0x7E, 0⟩

/-- `function_block_profile` (inc/midi/capability_inquiry.h 388). -/
def functionBlockProfile : ProfileDestination := ⟨0x7F, 0⟩

/-- `operator==(profile_destination, profile_destination)` (inc/midi/capability_inquiry.h 1388-1391). -/
def ProfileDestination.eqv (a b : ProfileDestination) : Bool :=
  a.scope == b.scope && a.numChannels == b.numChannels

/-- `profile_id{ data[pos], …, data[pos + 4] }`. -/
def profileAt (s : Sysex) (pos : Nat) : Except Fault ProfileId := do
  let b1 ← index s.data pos
  let b2 ← index s.data (pos + 1)
  let b3 ← index s.data (pos + 2)
  let b4 ← index s.data (pos + 3)
  let b5 ← index s.data (pos + 4)
  return { b1, b2, b3, b4, b5 }

/-- `profile_inquiry_view::validate(sx)` (inc/midi/capability_inquiry.h 1395-1399). -/
def ProfileInquiryView.validate (s : Sysex) : Except Fault Bool :=
  (typeOf s).map (· == 0x7E0D) &&! (subtypeOf s).map (· == 0x20) &&! sizeAtLeast s 12

/-- `make_profile_inquiry_message` (inc/midi/capability_inquiry.h 1401-1404). -/
def makeProfileInquiry (source dest : Word) (deviceId : Byte) : Except Fault Sysex :=
  makeMessage 0x20 source dest deviceId

namespace ProfileInquiryReplyView

/-- `profile_inquiry_reply_view::validate(sx)` (src/capability_inquiry.cpp 105-122). -/
def validate (s : Sysex) : Except Fault Bool := do
  if ← isNonRealtime s &&! sizeAtLeast s 16 &&! dataAt s 1 (· == 0x0D) &&! dataAt s 2 (· == 0x21) then
    let expected := 16 + (← s.makeUint14 12).toNat * 5
    if expected ≤ s.data.length then
      let expected := expected + (← s.makeUint14 (expected - 2)).toNat * 5
      return decide (expected ≤ s.data.length)
    else return false
  else return false

/-- `offset_of_disabled_profiles()` (inc/midi/capability_inquiry.h 1415-1419). -/
def offsetOfDisabled (s : Sysex) : Except Fault Nat := do return 14 + (← s.makeUint14 12).toNat * 5

/-- `has_enabled_profiles()` (inc/midi/capability_inquiry.h 1421-1425). -/
def hasEnabled (s : Sysex) : Except Fault Bool := do
  let a ← index s.data 12
  let b ← index s.data 13
  return ((a ||| b) &&& 0x7F) != 0

/-- `has_disabled_profiles()` (inc/midi/capability_inquiry.h 1427-1431). -/
def hasDisabled (s : Sysex) : Except Fault Bool := do
  let p ← offsetOfDisabled s
  let a ← index s.data p
  let b ← index s.data (p + 1)
  return ((a ||| b) &&& 0x7F) != 0

/-- `num_enabled_profiles()` (inc/midi/capability_inquiry.h 1433-1436). -/
def numEnabled (s : Sysex) : Except Fault U16 := s.makeUint14 12

/-- `num_disabled_profiles()` (inc/midi/capability_inquiry.h 1438-1442). -/
def numDisabled (s : Sysex) : Except Fault U16 := do s.makeUint14 (← offsetOfDisabled s)

/-- The loop of `make_profiles(pos)` (src/capability_inquiry.cpp 180-184): `n` more profiles starting at `d`. -/
def profilesFrom (s : Sysex) : (n d : Nat) → Except Fault (List ProfileId)
  | 0, _ => .ok []
  | n + 1, d => do
    let p ← profileAt s d
    let ps ← profilesFrom s n (d + 5)
    return p :: ps

/-- `make_profiles(pos)` (src/capability_inquiry.cpp 169-187). -/
def makeProfiles (s : Sysex) (pos : Nat) : Except Fault (List ProfileId) := do
  assert (pos + 1 < s.data.length)
  let n ← s.makeUint14 pos
  assert (pos + 1 + n.toNat * 5 < s.data.length)
  profilesFrom s n.toNat (pos + 2)

/-- `enabled_profiles()` (inc/midi/capability_inquiry.h 1444-1447). -/
def enabled (s : Sysex) : Except Fault (List ProfileId) := makeProfiles s 12

/-- `disabled_profiles()` (inc/midi/capability_inquiry.h 1449-1452). -/
def disabled (s : Sysex) : Except Fault (List ProfileId) := do makeProfiles s (← offsetOfDisabled s)

end ProfileInquiryReplyView

/-- The lambda `add_profile` of `make_profile_inquiry_reply` (src/capability_inquiry.cpp 144-150). -/
def addProfile (s : Sysex) (p : ProfileId) : Except Fault Sysex := do
  let s ← s.addUint7 p.b1
  let s ← s.addUint7 p.b2
  let s ← s.addUint7 p.b3
  let s ← s.addUint7 p.b4
  s.addUint7 p.b5

/-- The loops of `make_profile_inquiry_reply` (src/capability_inquiry.cpp 153-156, 159-162): adds the `n` profiles at
the given pointer; running out of the array is a fault. -/
def addProfiles (s : Sysex) : Nat → List ProfileId → Except Fault Sysex
  | 0, _ => .ok s
  | _ + 1, [] => .error .outOfBounds
  | n + 1, p :: ps => do
    let s ← addProfile s p
    addProfiles s n ps

/-- `make_profile_inquiry_reply` taking arrays with their sizes (src/capability_inquiry.cpp 126-165). -/
def makeProfileInquiryReplyN (source dest : Word) (enabled : List ProfileId) (numEnabled : U16)
    (disabled : List ProfileId) (numDisabled : U16) (deviceId : Byte) : Except Fault Sysex := do
  assert (numEnabled ≤ 16383)
  assert (numDisabled ≤ 16383)
  let s ← makeWithPayload 0x21 source dest deviceId
  let s ← s.addUint14 numEnabled
  let s ← addProfiles s numEnabled.toNat enabled
  let s ← s.addUint14 numDisabled
  addProfiles s numDisabled.toNat disabled

/-- `make_profile_inquiry_reply` taking vectors (inc/midi/capability_inquiry.h 1454-1467): the sizes are converted to
16 bit. -/
def makeProfileInquiryReply (source dest : Word) (enabled disabled : List ProfileId) (deviceId : Byte) :
    Except Fault Sysex :=
  makeProfileInquiryReplyN source dest enabled (BitVec.ofNat 16 enabled.length) disabled
    (BitVec.ofNat 16 disabled.length) deviceId

/-- `profile_id_view::profile()` (inc/midi/capability_inquiry.h 1476-1483). -/
def ProfileIdView.profile (s : Sysex) : Except Fault ProfileId := profileAt s 12

/-- `profile_id_view::validate(sx)` (inc/midi/capability_inquiry.h 1485-1490). -/
def ProfileIdView.validate (s : Sysex) : Except Fault Bool :=
  isNonRealtime s &&! sizeAtLeast s 17 &&! dataAt s 1 (· == 0x0D) &&! dataAt s 2 (fun v => decide (v ≥ 0x22)) &&!
    dataAt s 2 (fun v => decide (v ≤ 0x27))

/-- `profile_destination_view::num_channels()` (inc/midi/capability_inquiry.h 1499-1502). -/
def ProfileDestinationView.numChannels (s : Sysex) : Except Fault U16 := s.makeUint14 17

/-- `profile_destination_view::params()` (inc/midi/capability_inquiry.h 1504-1507). -/
def ProfileDestinationView.params (s : Sysex) : Except Fault ProfileDestination := do
  let scope ← UniversalSysex.View.deviceId s
  let numChannels ← numChannels s
  return { scope, numChannels }

/-- `profile_destination_view::validate(sx)` (inc/midi/capability_inquiry.h 1509-1514). -/
def ProfileDestinationView.validate (s : Sysex) : Except Fault Bool :=
  isNonRealtime s &&! sizeAtLeast s 19 &&! dataAt s 1 (· == 0x0D) &&! dataAt s 2 (fun v => decide (v ≥ 0x22)) &&!
    dataAt s 2 (fun v => decide (v ≤ 0x25))

/-- `make_profile_on_request` (inc/midi/capability_inquiry.h 1518-1528). -/
def makeProfileOn (source dest : Word) (p : ProfileId) (d : ProfileDestination) : Except Fault Sysex := do
  let s ← makeWithPayload 0x22 source dest d.scope
  let s ← s.addData p.bytes
  s.addUint14 d.numChannels

/-- `make_profile_off_request` (inc/midi/capability_inquiry.h 1532-1542). -/
def makeProfileOff (source dest : Word) (p : ProfileId) (d : ProfileDestination) : Except Fault Sysex := do
  let s ← makeWithPayload 0x23 source dest d.scope
  let s ← s.addData p.bytes
  s.addUint14 0

/-- `make_profile_enabled_notification` (inc/midi/capability_inquiry.h 1546-1556). -/
def makeProfileEnabled (source dest : Word) (p : ProfileId) (d : ProfileDestination) : Except Fault Sysex := do
  let s ← makeWithPayload 0x24 source dest d.scope
  let s ← s.addData p.bytes
  s.addUint14 d.numChannels

/-- `make_profile_disabled_notification` (inc/midi/capability_inquiry.h 1560-1570). -/
def makeProfileDisabled (source dest : Word) (p : ProfileId) (d : ProfileDestination) : Except Fault Sysex := do
  let s ← makeWithPayload 0x25 source dest d.scope
  let s ← s.addData p.bytes
  s.addUint14 d.numChannels

/-- `make_profile_added_notification` (inc/midi/capability_inquiry.h 1574-1582). -/
def makeProfileAdded (source dest : Word) (p : ProfileId) (deviceId : Byte) : Except Fault Sysex := do
  let s ← makeWithPayload 0x26 source dest deviceId
  s.addData p.bytes

/-- `make_profile_removed_notification` (inc/midi/capability_inquiry.h 1586-1595). -/
def makeProfileRemoved (source dest : Word) (p : ProfileId) (deviceId : Byte) : Except Fault Sysex := do
  let s ← makeWithPayload 0x27 source dest deviceId
  s.addData p.bytes

/-- `profile_details_inquiry_view::profile()` (inc/midi/capability_inquiry.h 1605-1612). -/
def ProfileDetailsInquiryView.profile (s : Sysex) : Except Fault ProfileId := profileAt s 12

/-- `profile_details_inquiry_view::target()` (inc/midi/capability_inquiry.h 1614-1617). -/
def ProfileDetailsInquiryView.target (s : Sysex) : Except Fault Byte := index s.data 17

/-- `profile_details_inquiry_view::validate(sx)` (inc/midi/capability_inquiry.h 1619-1624). -/
def ProfileDetailsInquiryView.validate (s : Sysex) : Except Fault Bool :=
  isNonRealtime s &&! sizeAtLeast s 18 &&! dataAt s 1 (· == 0x0D) &&! dataAt s 2 (· == 0x28)

/-- `make_profile_details_inquiry` (inc/midi/capability_inquiry.h 1626-1634). -/
def makeProfileDetailsInquiry (source dest : Word) (p : ProfileId) (target deviceId : Byte) : Except Fault Sysex := do
  let m ← makeWithPayload 0x28 source dest deviceId
  let m ← m.addData p.bytes
  m.addUint7 target

/-- `make_profile_details_reply` (inc/midi/capability_inquiry.h 1636-1651). -/
def makeProfileDetailsReply (source dest : Word) (p : ProfileId) (target : Byte) (data : List Byte)
    (deviceId : Byte) : Except Fault Sysex := do
  let m ← makeWithPayload 0x29 source dest deviceId
  let m ← m.addData p.bytes
  let m ← m.addUint7 target
  let m ← m.addUint14 (BitVec.ofNat 16 data.length)
  return { m with data := m.data ++ data }

namespace ProfileDetailsReplyView

/-- `profile_details_reply_view::profile()` (inc/midi/capability_inquiry.h 1663-1670). -/
def profile (s : Sysex) : Except Fault ProfileId := profileAt s 12

/-- `profile_details_reply_view::target()` (inc/midi/capability_inquiry.h 1672-1675). -/
def target (s : Sysex) : Except Fault Byte := index s.data 17

/-- `profile_details_reply_view::target_data_length()` (inc/midi/capability_inquiry.h 1677-1680). -/
def dataLength (s : Sysex) : Except Fault U16 := s.makeUint14 18

/-- The `target_data_length()` bytes at `target_data()` (inc/midi/capability_inquiry.h 1682-1685). -/
def data (s : Sysex) : Except Fault (List Byte) := do slice s 20 (← dataLength s).toNat

/-- `profile_details_reply_view::validate(sx)` (inc/midi/capability_inquiry.h 1687-1693). -/
def validate (s : Sysex) : Except Fault Bool :=
  isNonRealtime s &&! sizeAtLeast s 20 &&! sizeAtLeast14 s 20 18 &&! dataAt s 1 (· == 0x0D) &&! dataAt s 2 (· == 0x29)

end ProfileDetailsReplyView

namespace ProfileSpecificDataView

/-- `profile_specific_data_view::validate(sx)` (inc/midi/capability_inquiry.h 1704-1709). -/
def validate (s : Sysex) : Except Fault Bool :=
  isNonRealtime s &&! sizeAtLeast s 21 &&!
    ((s.makeUint28 17).map fun l => decide (21 + l.toNat ≤ s.data.length)) &&!
    dataAt s 1 (· == 0x0D) &&! dataAt s 2 (· == 0x2F)

/-- `profile_specific_data_view::data_size()` (inc/midi/capability_inquiry.h 1721-1724). -/
def dataSize (s : Sysex) : Except Fault Nat := do return (← s.makeUint28 17).toNat

/-- The bytes from `data_begin()` to `data_end()` (inc/midi/capability_inquiry.h 1711-1719). -/
def data (s : Sysex) : Except Fault (List Byte) := do slice s 21 (← dataSize s)

end ProfileSpecificDataView

/-- `make_profile_specific_data_message` taking a pointer and a size (src/capability_inquiry.cpp 191-209). The size is
converted to 32 bit for the size field. -/
def makeProfileSpecificData (source dest : Word) (p : ProfileId) (data : List Byte) (deviceId : Byte) :
    Except Fault Sysex := do
  let s ← makeWithPayload 0x2F source dest deviceId
  let s ← s.addData p.bytes
  let s ← s.addUint28 (BitVec.ofNat 32 data.length)
  if data.length ≠ 0 then s.addData data else return s

/-- `make_profile_specific_data_message` taking a vector (inc/midi/capability_inquiry.h 1726-1731): the size is converted
to 16 bit, so only that many bytes are passed on. -/
def makeProfileSpecificDataVector (source dest : Word) (p : ProfileId) (data : List Byte) (deviceId : Byte) :
    Except Fault Sysex :=
  makeProfileSpecificData source dest p (data.take (data.length % 65536)) deviceId

/-! ## Property exchange -/

/-- `_private_data_view` with its derived structs `header` and `chunk` (inc/midi/capability_inquiry.h 1741-1782): a
pointer, which may be null, and a size. `bytes` are the bytes pointed to; for a null pointer its length is the size. -/
structure DataView where
  null : Bool := true
  bytes : List Byte := []
deriving DecidableEq, Repr, Inhabited

namespace PropertyDataView

/-- `request_id()` (inc/midi/capability_inquiry.h 1824-1827). -/
def requestId (s : Sysex) : Except Fault Byte := index s.data 12

/-- `header_size()` (inc/midi/capability_inquiry.h 1839-1842). -/
def headerSize (s : Sysex) : Except Fault Nat := do return (← s.makeUint14 13).toNat

/-- The bytes from `header_begin()` to `header_end()` (inc/midi/capability_inquiry.h 1829-1837). -/
def header (s : Sysex) : Except Fault (List Byte) := do slice s 15 (← headerSize s)

/-- `number_of_chunks()` (inc/midi/capability_inquiry.h 1844-1847). -/
def numberOfChunks (s : Sysex) : Except Fault U16 := do s.makeUint14 (15 + (← headerSize s))

/-- `number_of_this_chunk()` (inc/midi/capability_inquiry.h 1849-1852). -/
def numberOfThisChunk (s : Sysex) : Except Fault U16 := do s.makeUint14 (17 + (← headerSize s))

/-- `chunk_size()` (inc/midi/capability_inquiry.h 1864-1867). -/
def chunkSize (s : Sysex) : Except Fault Nat := do return (← s.makeUint14 (19 + (← headerSize s))).toNat

/-- The bytes from `chunk_begin()` to `chunk_end()` (inc/midi/capability_inquiry.h 1854-1862). -/
def chunk (s : Sysex) : Except Fault (List Byte) := do slice s (21 + (← headerSize s)) (← chunkSize s)

/-- `property_data_message_view::validate(sx)` (src/capability_inquiry.cpp 213-244). -/
def validate (s : Sysex) : Except Fault Bool := do
  if ← isNonRealtime s &&! sizeAtLeast s 21 &&! dataAt s 1 (· == 0x0D) &&! dataAt s 2 (fun v => decide (v ≥ 0x34)) then
    if ← dataAt s 2 (fun v => decide (v ≤ 0x39)) ||! dataAt s 2 (· == 0x3F) then
      let headerBytes := (← s.makeUint14 13).toNat
      if s.data.length < 15 + headerBytes + 6 then return false
      else
        let numChunks := (← s.makeUint14 (15 + headerBytes)).toNat
        let curChunk := (← s.makeUint14 (17 + headerBytes)).toNat
        let chunkBytes := (← s.makeUint14 (19 + headerBytes)).toNat
        if numChunks ≠ 0 ∧ curChunk > numChunks then return false
        else if headerBytes ≠ 0 ∧ curChunk > 1 then return false
        else if chunkBytes ≠ 0 ∧ curChunk < 1 then return false
        else return decide (21 + headerBytes + chunkBytes ≤ s.data.length)
    else return false
  else return false

end PropertyDataView

namespace PropertyExchangeCapabilitiesView

/-- `maximum_number_of_requests()` (inc/midi/capability_inquiry.h 1878-1881). -/
def maxRequests (s : Sysex) : Except Fault Byte := index s.data 12

/-- `pe_version_major()` (inc/midi/capability_inquiry.h 1883-1886). -/
def versionMajor (s : Sysex) : Except Fault Byte := do
  if (← View.messageVersion s) ≥ 2 then index s.data 13 else return 0

/-- `pe_version_minor()` (inc/midi/capability_inquiry.h 1888-1891). -/
def versionMinor (s : Sysex) : Except Fault Byte := do
  if (← View.messageVersion s) ≥ 2 then index s.data 14 else return 0

/-- `property_exchange_capabilities_view::validate(sx)` (inc/midi/capability_inquiry.h 1893-1900). -/
def validate (s : Sysex) : Except Fault Bool :=
  isNonRealtime s &&! sizeAtLeast s 13 &&! dataAt s 1 (· == 0x0D) &&! dataAt s 2 (fun v => decide (v ≥ 0x30)) &&!
    dataAt s 2 (fun v => decide (v ≤ 0x31)) &&! (dataAt s 3 (fun v => decide (v < 2)) ||! sizeAtLeast s 15)

end PropertyExchangeCapabilitiesView

/-- `property_exchange::make_capabilities_message` (inc/midi/capability_inquiry.h 1902-1910). -/
def makePeCapabilities (subtype : Byte) (source dest : Word) (maxRequests deviceId : Byte) : Except Fault Sysex := do
  let s ← makeWithPayload subtype source dest deviceId
  s.addData [maxRequests, 0x00, 0x00]

/-- `make_property_exchange_capabilities_inquiry` (inc/midi/capability_inquiry.h 1914-1921). -/
def makePeCapabilitiesInquiry (source dest : Word) (maxRequests deviceId : Byte) : Except Fault Sysex :=
  makePeCapabilities 0x30 source dest maxRequests deviceId

/-- `make_property_exchange_capabilities_reply` (inc/midi/capability_inquiry.h 1925-1932). -/
def makePeCapabilitiesReply (source dest : Word) (maxRequests deviceId : Byte) : Except Fault Sysex :=
  makePeCapabilities 0x31 source dest maxRequests deviceId

/-- `property_exchange::make_property_data_message` (src/capability_inquiry.cpp 248-285). Sizes are converted to 16 bit
for the size fields. -/
def makePropertyData (subtype : Byte) (source dest : Word) (header : DataView) (numChunks thisChunk : U16)
    (chunk : DataView) (requestId deviceId : Byte) : Except Fault Sysex := do
  let s ← makeWithPayload subtype source dest deviceId
  assert (thisChunk != 0 || (chunk.null && chunk.bytes.length == 0))
  assert (numChunks == 0 || decide (thisChunk ≤ numChunks))
  assert (header.bytes.length == 0 || !header.null)
  assert (chunk.bytes.length == 0 || !chunk.null)
  let s ← s.addUint7 requestId
  let s ← s.addUint14 (BitVec.ofNat 16 header.bytes.length)
  let s ← if header.bytes.length ≠ 0 then s.addData header.bytes else pure s
  let s ← s.addUint14 numChunks
  let s ← s.addUint14 thisChunk
  let s ← s.addUint14 (BitVec.ofNat 16 chunk.bytes.length)
  if chunk.bytes.length ≠ 0 then s.addData chunk.bytes else return s

/-- `get_property_data_view::validate(sx)` (inc/midi/capability_inquiry.h 1936-1940). -/
def GetPropertyDataView.validate (s : Sysex) : Except Fault Bool :=
  PropertyDataView.validate s &&! (dataAt s 2 (· == 0x34) ||! dataAt s 2 (· == 0x35))

/-- `set_property_data_view::validate(sx)` (inc/midi/capability_inquiry.h 2076-2080). -/
def SetPropertyDataView.validate (s : Sysex) : Except Fault Bool :=
  PropertyDataView.validate s &&! (dataAt s 2 (· == 0x36) ||! dataAt s 2 (· == 0x37))

/-- `subscription_view::validate(sx)` (inc/midi/capability_inquiry.h 2203-2207). -/
def SubscriptionView.validate (s : Sysex) : Except Fault Bool :=
  PropertyDataView.validate s &&! (dataAt s 2 (· == 0x38) ||! dataAt s 2 (· == 0x39))

/-- `notify_view::validate(sx)` (inc/midi/capability_inquiry.h 2336-2339). -/
def NotifyView.validate (s : Sysex) : Except Fault Bool :=
  PropertyDataView.validate s &&! dataAt s 2 (· == 0x3F)

/-! ## Process inquiry -/

/-- `make_process_inquiry_capabilities_inquiry` (inc/midi/capability_inquiry.h 2391-2394). -/
def makeProcessInquiryCapabilitiesInquiry (source dest : Word) (deviceId : Byte) : Except Fault Sysex :=
  makeMessage 0x40 source dest deviceId

/-- `process_inquiry_capabilities_reply_view::supported_features()` (inc/midi/capability_inquiry.h 2403-2406). -/
def ProcessInquiryCapabilitiesReplyView.supportedFeatures (s : Sysex) : Except Fault Byte := index s.data 12

/-- `process_inquiry_capabilities_reply_view::validate(sx)` (inc/midi/capability_inquiry.h 2408-2413). -/
def ProcessInquiryCapabilitiesReplyView.validate (s : Sysex) : Except Fault Bool :=
  isNonRealtime s &&! sizeAtLeast s (12 + 1) &&! dataAt s 1 (· == 0x0D) &&! dataAt s 2 (· == 0x41)

/-- `make_process_inquiry_capabilities_reply` (inc/midi/capability_inquiry.h 2415-2424). -/
def makeProcessInquiryCapabilitiesReply (source dest : Word) (features deviceId : Byte) : Except Fault Sysex := do
  let s ← makeWithPayload 0x41 source dest deviceId
  s.addData [features]

namespace MidiMessageReportInquiryView

/-- `message_data_control()` (inc/midi/capability_inquiry.h 2437-2440). -/
def messageDataControl (s : Sysex) : Except Fault Byte := index s.data 12

/-- `system_message_types()` (inc/midi/capability_inquiry.h 2442-2445). -/
def systemMessageTypes (s : Sysex) : Except Fault Byte := index s.data 13

/-- `channel_controller_message_types()` (inc/midi/capability_inquiry.h 2447-2450). -/
def channelControllerMessageTypes (s : Sysex) : Except Fault Byte := index s.data 15

/-- `note_data_message_types()` (inc/midi/capability_inquiry.h 2452-2455). -/
def noteDataMessageTypes (s : Sysex) : Except Fault Byte := index s.data 16

/-- `midi_message_report_inquiry_view::validate(sx)` (inc/midi/capability_inquiry.h 2457-2462). -/
def validate (s : Sysex) : Except Fault Bool :=
  isNonRealtime s &&! sizeAtLeast s (16 + 1) &&! dataAt s 1 (· == 0x0D) &&! dataAt s 2 (· == 0x42)

end MidiMessageReportInquiryView

/-- `make_midi_message_report_inquiry` (inc/midi/capability_inquiry.h 2464-2478). -/
def makeMidiMessageReportInquiry (source dest : Word) (control system channel note deviceId : Byte) :
    Except Fault Sysex := do
  let s ← makeWithPayload 0x42 source dest deviceId
  s.addData [control, system, 0, channel, note]

namespace MidiMessageReportReplyView

/-- `system_message_types()` (inc/midi/capability_inquiry.h 2490-2493). -/
def systemMessageTypes (s : Sysex) : Except Fault Byte := index s.data 12

/-- `channel_controller_message_types()` (inc/midi/capability_inquiry.h 2495-2498). -/
def channelControllerMessageTypes (s : Sysex) : Except Fault Byte := index s.data 14

/-- `note_data_message_types()` (inc/midi/capability_inquiry.h 2500-2503). -/
def noteDataMessageTypes (s : Sysex) : Except Fault Byte := index s.data 15

/-- `midi_message_report_reply_view::validate(sx)` (inc/midi/capability_inquiry.h 2505-2510). -/
def validate (s : Sysex) : Except Fault Bool :=
  isNonRealtime s &&! sizeAtLeast s (15 + 1) &&! dataAt s 1 (· == 0x0D) &&! dataAt s 2 (· == 0x43)

end MidiMessageReportReplyView

/-- `make_midi_message_report_reply` (inc/midi/capability_inquiry.h 2512-2524). -/
def makeMidiMessageReportReply (source : Word) (system channel note deviceId : Byte) : Except Fault Sysex := do
  let s ← makeWithPayload 0x43 source broadcastMuid deviceId
  s.addData [system, 0, channel, note]

/-- `make_midi_message_report_end` (inc/midi/capability_inquiry.h 2528-2531). -/
def makeMidiMessageReportEnd (source : Word) (deviceId : Byte) : Except Fault Sysex :=
  makeMessage 0x44 source broadcastMuid deviceId

/-! ## Property exchange headers -/

/-- The bytes of an ASCII string literal. -/
def ascii (s : String) : List Byte := s.toList.map fun c => BitVec.ofNat 8 c.toNat

/-- The loop of `is_number(s)` (src/capability_inquiry.cpp 294-300). -/
def isNumberLoop : List Byte → Bool
  | [] => true
  | c :: cs => if c < 0x30 ∨ c > 0x39 then false else isNumberLoop cs

/-- `is_number(s)` (src/capability_inquiry.cpp 290-301). `s[0]` of an empty string view is a fault. -/
def isNumber : List Byte → Except Fault Bool
  | [] => .error .outOfBounds
  | c :: cs => .ok (if c = 0x2D then isNumberLoop cs else isNumberLoop (c :: cs))

/-- `std::to_string(value)` for an `int`. -/
def toDecimal (v : Int) : List Byte :=
  if v < 0 then 0x2D :: (Nat.toDigits 10 v.natAbs).map (fun c => BitVec.ofNat 8 c.toNat)
  else (Nat.toDigits 10 v.natAbs).map (fun c => BitVec.ofNat 8 c.toNat)

/-- The loop over `options` in `make_rjson` (src/capability_inquiry.cpp 311-317, 330-336): what it appends. -/
def rjsonOptions : List (List Byte × List Byte) → Except Fault (List Byte)
  | [] => .ok []
  | (k, v) :: os => do
    let o := if ← isNumber v then ascii ",\"" ++ k ++ ascii "\":" ++ v
      else ascii ",\"" ++ k ++ ascii "\":\"" ++ v ++ ascii "\""
    return o ++ (← rjsonOptions os)

/-- `make_rjson(key, value)` for a string (inc/midi/capability_inquiry.h 1801-1804). -/
def makeRjson (key value : List Byte) : List Byte :=
  ascii "{\"" ++ key ++ ascii "\":\"" ++ value ++ ascii "\"}"

/-- `make_rjson(key, value)` for an `int` (inc/midi/capability_inquiry.h 1806-1809). -/
def makeRjsonInt (key : List Byte) (value : Int) : List Byte :=
  ascii "{\"" ++ key ++ ascii "\":" ++ toDecimal value ++ ascii "}"

/-- `make_rjson(key, value, options)` for a string (src/capability_inquiry.cpp 306-321). -/
def makeRjsonOptions (key value : List Byte) (options : List (List Byte × List Byte)) : Except Fault (List Byte) := do
  let o ← rjsonOptions options
  return ascii "{\"" ++ key ++ ascii "\":\"" ++ value ++ ascii "\"" ++ o ++ ascii "}"

/-- `make_rjson(key, value, options)` for an `int` (src/capability_inquiry.cpp 325-340). -/
def makeRjsonIntOptions (key : List Byte) (value : Int) (options : List (List Byte × List Byte)) :
    Except Fault (List Byte) := do
  let o ← rjsonOptions options
  return ascii "{\"" ++ key ++ ascii "\":" ++ toDecimal value ++ o ++ ascii "}"

/-! ## Property exchange factories -/

/-- `header{ string }` (inc/midi/capability_inquiry.h 1756-1765): the pointer to the characters of a string is never
null. -/
def headerOf (s : List Byte) : DataView := { null := false, bytes := s }

/-- `make_get_property_data_inquiry` (inc/midi/capability_inquiry.h 1944-1960). -/
def makeGetInquiry (source dest : Word) (resource : List Byte) (requestId deviceId : Byte) : Except Fault Sysex :=
  makePropertyData 0x34 source dest (headerOf (makeRjson (ascii "resource") resource)) 1 1 {} requestId deviceId

/-- `make_get_property_data_inquiry` with options (inc/midi/capability_inquiry.h 1962-1982). -/
def makeGetInquiryOptions (source dest : Word) (resource : List Byte) (options : List (List Byte × List Byte))
    (requestId deviceId : Byte) : Except Fault Sysex := do
  let h ← makeRjsonOptions (ascii "resource") resource options
  makePropertyData 0x34 source dest (headerOf h) 1 1 {} requestId deviceId

/-- `make_get_property_data_reply` with a header (inc/midi/capability_inquiry.h 1986-2004). -/
def makeGetReplyHeader (source dest : Word) (header : DataView) (numChunks thisChunk : U16) (chunk : DataView)
    (requestId deviceId : Byte) : Except Fault Sysex :=
  makePropertyData 0x35 source dest header numChunks thisChunk chunk requestId deviceId

/-- `make_get_property_data_reply` with a status (inc/midi/capability_inquiry.h 2006-2028). -/
def makeGetReplyStatus (source dest : Word) (status : Int) (numChunks thisChunk : U16) (chunk : DataView)
    (requestId deviceId : Byte) : Except Fault Sysex :=
  makePropertyData 0x35 source dest (headerOf (makeRjsonInt (ascii "status") status)) numChunks thisChunk chunk
    requestId deviceId

/-- `make_get_property_data_reply` with status and message (inc/midi/capability_inquiry.h 2030-2053). -/
def makeGetReplyMessage (source dest : Word) (status : Int) (message : List Byte) (numChunks thisChunk : U16)
    (chunk : DataView) (requestId deviceId : Byte) : Except Fault Sysex := do
  let h ← makeRjsonIntOptions (ascii "status") status [(ascii "message", message)]
  makePropertyData 0x35 source dest (headerOf h) numChunks thisChunk chunk requestId deviceId

/-- `make_get_property_data_reply` without header (inc/midi/capability_inquiry.h 2055-2072). -/
def makeGetReplyChunk (source dest : Word) (numChunks thisChunk : U16) (chunk : DataView) (requestId deviceId : Byte) :
    Except Fault Sysex :=
  makePropertyData 0x35 source dest {} numChunks thisChunk chunk requestId deviceId

/-- `make_set_property_data_inquiry` (inc/midi/capability_inquiry.h 2084-2106). -/
def makeSetInquiry (source dest : Word) (resource : List Byte) (numChunks thisChunk : U16) (chunk : DataView)
    (requestId deviceId : Byte) : Except Fault Sysex :=
  makePropertyData 0x36 source dest (headerOf (makeRjson (ascii "resource") resource)) numChunks thisChunk chunk
    requestId deviceId

/-- `make_set_property_data_inquiry` with options (inc/midi/capability_inquiry.h 2108-2131). -/
def makeSetInquiryOptions (source dest : Word) (resource : List Byte) (options : List (List Byte × List Byte))
    (numChunks thisChunk : U16) (chunk : DataView) (requestId deviceId : Byte) : Except Fault Sysex := do
  let h ← makeRjsonOptions (ascii "resource") resource options
  makePropertyData 0x36 source dest (headerOf h) numChunks thisChunk chunk requestId deviceId

/-- `make_set_property_data_inquiry` without header (inc/midi/capability_inquiry.h 2133-2152). -/
def makeSetInquiryChunk (source dest : Word) (numChunks thisChunk : U16) (chunk : DataView)
    (requestId deviceId : Byte) : Except Fault Sysex :=
  makePropertyData 0x36 source dest {} numChunks thisChunk chunk requestId deviceId

/-- `make_set_property_data_reply` (inc/midi/capability_inquiry.h 2156-2172). -/
def makeSetReply (source dest : Word) (status : Int) (requestId deviceId : Byte) : Except Fault Sysex :=
  makePropertyData 0x37 source dest (headerOf (makeRjsonInt (ascii "status") status)) 1 1 {} requestId deviceId

/-- `make_set_property_data_reply` with message (inc/midi/capability_inquiry.h 2174-2199). -/
def makeSetReplyMessage (source dest : Word) (status : Int) (message : List Byte) (requestId deviceId : Byte) :
    Except Fault Sysex := do
  let h ← makeRjsonIntOptions (ascii "status") status [(ascii "message", message)]
  makePropertyData 0x37 source dest (headerOf h) 1 1 {} requestId deviceId

/-- `make_subscription_inquiry` (inc/midi/capability_inquiry.h 2211-2237). -/
def makeSubscriptionInquiry (source dest : Word) (resource command subscribeId : List Byte)
    (requestId deviceId : Byte) : Except Fault Sysex := do
  let h ← makeRjsonOptions (ascii "resource") resource [(ascii "command", command), (ascii "subscribeId", subscribeId)]
  makePropertyData 0x38 source dest (headerOf h) 0 0 {} requestId deviceId

/-- `make_subscription_inquiry` with chunks (inc/midi/capability_inquiry.h 2239-2268). -/
def makeSubscriptionInquiryChunks (source dest : Word) (resource command subscribeId : List Byte)
    (numChunks thisChunk : U16) (chunk : DataView) (requestId deviceId : Byte) : Except Fault Sysex := do
  let h ← makeRjsonOptions (ascii "resource") resource [(ascii "command", command), (ascii "subscribeId", subscribeId)]
  makePropertyData 0x38 source dest (headerOf h) numChunks thisChunk chunk requestId deviceId

/-- `make_subscription_inquiry` without header (inc/midi/capability_inquiry.h 2270-2290). -/
def makeSubscriptionInquiryChunk (source dest : Word) (numChunks thisChunk : U16) (chunk : DataView)
    (requestId deviceId : Byte) : Except Fault Sysex :=
  makePropertyData 0x38 source dest {} numChunks thisChunk chunk requestId deviceId

/-- `make_subscription_reply` (inc/midi/capability_inquiry.h 2294-2310). -/
def makeSubscriptionReply (source dest : Word) (status : Int) (requestId deviceId : Byte) : Except Fault Sysex :=
  makePropertyData 0x39 source dest (headerOf (makeRjsonInt (ascii "status") status)) 1 1 {} requestId deviceId

/-- `make_subscription_reply` with message (inc/midi/capability_inquiry.h 2312-2332). -/
def makeSubscriptionReplyMessage (source dest : Word) (status : Int) (message : List Byte)
    (requestId deviceId : Byte) : Except Fault Sysex := do
  let h ← makeRjsonIntOptions (ascii "status") status [(ascii "message", message)]
  makePropertyData 0x39 source dest (headerOf h) 1 1 {} requestId deviceId

/-- `make_notify_message` (inc/midi/capability_inquiry.h 2343-2359). -/
def makeNotify (source dest : Word) (status : Int) (requestId deviceId : Byte) : Except Fault Sysex :=
  makePropertyData 0x3F source dest (headerOf (makeRjsonInt (ascii "status") status)) 1 1 {} requestId deviceId

/-- `make_notify_message` with message (inc/midi/capability_inquiry.h 2361-2381). -/
def makeNotifyMessage (source dest : Word) (status : Int) (message : List Byte) (requestId deviceId : Byte) :
    Except Fault Sysex := do
  let h ← makeRjsonIntOptions (ascii "status") status [(ascii "message", message)]
  makePropertyData 0x3F source dest (headerOf h) 1 1 {} requestId deviceId

end Midi.CI
