import Verif.Model.Sysex

/-!
# UMP stream messages

Models inc/midi/stream_message.h. A view is the packet it refers to. A string is the list of its bytes. A `send_*` function
returns the list of packets passed to the sender callback.
-/

namespace Midi

/-! `namespace stream_status` (inc/midi/universal_packet.h 159-171). -/

namespace StreamStatus
/-- `stream_status::endpoint_discovery` (inc/midi/universal_packet.h 160). -/
def endpointDiscovery : Byte := 0x00
/-- `stream_status::endpoint_info` (inc/midi/universal_packet.h 161). -/
def endpointInfo : Byte := 0x01
/-- `stream_status::device_identity` (inc/midi/universal_packet.h 162). -/
def deviceIdentity : Byte := 0x02
/-- `stream_status::endpoint_name` (inc/midi/universal_packet.h 163). -/
def endpointName : Byte := 0x03
/-- `stream_status::product_instance_id` (inc/midi/universal_packet.h 164). -/
def productInstanceId : Byte := 0x04
/-- `stream_status::stream_configuration_request` (inc/midi/universal_packet.h 165). -/
def streamConfigurationRequest : Byte := 0x05
/-- `stream_status::stream_configuration_notify` (inc/midi/universal_packet.h 166). -/
def streamConfigurationNotify : Byte := 0x06
/-- `stream_status::function_block_discovery` (inc/midi/universal_packet.h 168). -/
def functionBlockDiscovery : Byte := 0x10
/-- `stream_status::function_block_info` (inc/midi/universal_packet.h 169). -/
def functionBlockInfo : Byte := 0x11
/-- `stream_status::function_block_name` (inc/midi/universal_packet.h 170). -/
def functionBlockName : Byte := 0x12
end StreamStatus

/-! ## Packets and strings -/

/-- `stream_message()` (inc/midi/stream_message.h 414-417). -/
def streamDefault : Packet := { w0 := 0xF0000000 }

/-- `stream_message(status, format)` (inc/midi/stream_message.h 419-422). -/
def streamMessage (status : Byte) (format : Format) : Packet :=
  { w0 := 0xF0000000 ||| (format.code.setWidth 32 <<< 26) ||| (status.setWidth 32 <<< 16) }

/-- `stream_message::format()` and the equal `format()` of the name views (inc/midi/stream_message.h 53, 194, 217, 358). -/
def streamFormat (p : Packet) : Format := Format.ofCode (((p.w0 >>> 26) &&& 0x03).setWidth 8)

/-- `stream_message::set_format(f)` (inc/midi/stream_message.h 424-427). -/
def streamSetFormat (p : Packet) (f : Format) : Packet :=
  { p with w0 := (p.w0 &&& 0xF3FFFFFF) ||| (f.code.setWidth 32 <<< 26) }

/-- The loop of `payload_as_string` functions over the last `n` bytes of a packet: characters up to the first zero
(inc/midi/stream_message.h 64-72, inc/midi/flex_data_message.h 168-176). -/
def readText (get : Packet → Nat → Except Fault Byte) (p : Packet) : Nat → Except Fault (List Byte)
  | 0 => .ok []
  | n + 1 => do
    let c ← get p (16 - (n + 1))
    if c ≠ 0 then
      let r ← readText get p n
      return c :: r
    else
      return []

/-- `stream_message::payload_as_string(p, offset)` (inc/midi/stream_message.h 60-74). For offsets beyond the packet the argument of
`result.reserve(16 - offset)` (63) is a negative `int`, converted to a `size_t` beyond `max_size()`. -/
def streamPayloadAsString (p : Packet) (offset : Nat) : Except Fault (List Byte) :=
  if offset > 16 then .error .lengthError else readText Packet.getByte7 p (16 - offset)

/-- The loop storing characters into a packet from byte `b` on (inc/midi/stream_message.h 555-561, 570-576, 656-662,
inc/midi/flex_data_message.h 227-233). -/
def storeText (set : Packet → Nat → Byte → Except Fault Packet) (p : Packet) (b : Nat) : List Byte → Except Fault Packet
  | [] => .ok p
  | c :: cs => do
    let p ← set p b c
    if b + 1 ≥ 16 then
      return p
    else
      storeText set p (b + 1) cs

/-- `is_stream_message(p)` (inc/midi/stream_message.h 431-434). -/
def isStreamMessage (p : Packet) : Bool := p.type == PacketType.stream

/-! ## Views

The constructor of a view asserts type and status. -/

/-- The constructor of a view for stream messages with a status (inc/midi/stream_message.h 100-105, 131-136, 159-164,
187-192, 210-215, 256-261, 319-324, 351-356). -/
def streamView (status : Byte) (p : Packet) : Except Fault Packet := do
  assert (p.type == PacketType.stream)
  assert (p.status == status)
  return p

/-- The constructor of `stream_configuration_view` (inc/midi/stream_message.h 233-239). -/
def streamConfigurationView (p : Packet) : Except Fault Packet := do
  assert (p.type == PacketType.stream)
  assert (p.status == StreamStatus.streamConfigurationRequest || p.status == StreamStatus.streamConfigurationNotify)
  return p

/-- `as_endpoint_discovery_view(p)` (inc/midi/stream_message.h 438-444). -/
def asEndpointDiscovery (p : Packet) : Except Fault (Option Packet) :=
  if isStreamMessage p && p.status == StreamStatus.endpointDiscovery then some <$> streamView StreamStatus.endpointDiscovery p
  else .ok none

/-- `as_endpoint_info_view(p)` (inc/midi/stream_message.h 446-452). -/
def asEndpointInfo (p : Packet) : Except Fault (Option Packet) :=
  if isStreamMessage p && p.status == StreamStatus.endpointInfo then some <$> streamView StreamStatus.endpointInfo p
  else .ok none

/-- `as_device_identity_view(p)` (inc/midi/stream_message.h 454-460). -/
def asDeviceIdentity (p : Packet) : Except Fault (Option Packet) :=
  if isStreamMessage p && p.status == StreamStatus.deviceIdentity then some <$> streamView StreamStatus.deviceIdentity p
  else .ok none

/-- `as_endpoint_name_view(p)` (inc/midi/stream_message.h 462-468). -/
def asEndpointName (p : Packet) : Except Fault (Option Packet) :=
  if isStreamMessage p && p.status == StreamStatus.endpointName then some <$> streamView StreamStatus.endpointName p
  else .ok none

/-- `as_product_instance_id_view(p)` (inc/midi/stream_message.h 470-476). -/
def asProductInstanceId (p : Packet) : Except Fault (Option Packet) :=
  if isStreamMessage p && p.status == StreamStatus.productInstanceId then some <$> streamView StreamStatus.productInstanceId p
  else .ok none

/-- `as_stream_configuration_view(p)` (inc/midi/stream_message.h 478-485). -/
def asStreamConfiguration (p : Packet) : Except Fault (Option Packet) :=
  if isStreamMessage p &&
      (p.status == StreamStatus.streamConfigurationRequest || p.status == StreamStatus.streamConfigurationNotify) then
    some <$> streamConfigurationView p
  else .ok none

/-- `as_function_block_discovery_view(p)` (inc/midi/stream_message.h 487-493). -/
def asFunctionBlockDiscovery (p : Packet) : Except Fault (Option Packet) :=
  if isStreamMessage p && p.status == StreamStatus.functionBlockDiscovery then
    some <$> streamView StreamStatus.functionBlockDiscovery p
  else .ok none

/-- `as_function_block_info_view(p)` (inc/midi/stream_message.h 495-501). -/
def asFunctionBlockInfo (p : Packet) : Except Fault (Option Packet) :=
  if isStreamMessage p && p.status == StreamStatus.functionBlockInfo then some <$> streamView StreamStatus.functionBlockInfo p
  else .ok none

/-- `as_function_block_name_view(p)` (inc/midi/stream_message.h 503-509). -/
def asFunctionBlockName (p : Packet) : Except Fault (Option Packet) :=
  if isStreamMessage p && p.status == StreamStatus.functionBlockName then some <$> streamView StreamStatus.functionBlockName p
  else .ok none

namespace EndpointDiscoveryView
/-- `ump_version_major()` (inc/midi/stream_message.h 107). -/
def umpVersionMajor (p : Packet) : Byte := p.byte3
/-- `ump_version_minor()` (inc/midi/stream_message.h 108). -/
def umpVersionMinor (p : Packet) : Byte := p.byte4
/-- `ump_version()` (inc/midi/stream_message.h 109). -/
def umpVersion (p : Packet) : U16 := (p.w0 &&& 0xFFFF).setWidth 16
/-- `filter()` (inc/midi/stream_message.h 111). -/
def filter (p : Packet) : Byte := (p.w1 &&& 0b11111).setWidth 8
/-- `requests_info()` (inc/midi/stream_message.h 113). -/
def requestsInfo (p : Packet) : Bool := filter p &&& 0b00001 != 0
/-- `requests_device_identity()` (inc/midi/stream_message.h 114). -/
def requestsDeviceIdentity (p : Packet) : Bool := filter p &&& 0b00010 != 0
/-- `requests_name()` (inc/midi/stream_message.h 115). -/
def requestsName (p : Packet) : Bool := filter p &&& 0b00100 != 0
/-- `requests_product_instance_id()` (inc/midi/stream_message.h 116). -/
def requestsProductInstanceId (p : Packet) : Bool := filter p &&& 0b01000 != 0
/-- `requests_stream_configuration()` (inc/midi/stream_message.h 117). -/
def requestsStreamConfiguration (p : Packet) : Bool := filter p &&& 0b10000 != 0
end EndpointDiscoveryView

namespace EndpointInfoView
/-- `ump_version_major()` (inc/midi/stream_message.h 138). -/
def umpVersionMajor (p : Packet) : Byte := p.byte3
/-- `ump_version_minor()` (inc/midi/stream_message.h 139). -/
def umpVersionMinor (p : Packet) : Byte := p.byte4
/-- `ump_version()` (inc/midi/stream_message.h 140). -/
def umpVersion (p : Packet) : U16 := (p.w0 &&& 0xFFFF).setWidth 16
/-- `num_function_blocks()` (inc/midi/stream_message.h 142). -/
def numFunctionBlocks (p : Packet) : Except Fault Byte := do return (← p.getByte 4) &&& 0x7F
/-- `static_function_blocks()` (inc/midi/stream_message.h 143). -/
def staticFunctionBlocks (p : Packet) : Except Fault Bool := do return (← p.getByte 4) &&& 0x80 != 0
/-- `protocols()` (inc/midi/stream_message.h 144). -/
def protocols (p : Packet) : Except Fault Byte := do return (← p.getByte 6) &&& 0b11
/-- `extensions()` (inc/midi/stream_message.h 145). -/
def extensions (p : Packet) : Except Fault Byte := do return (← p.getByte 7) &&& 0b11
end EndpointInfoView

/-- `device_identity_view::identity()` (inc/midi/stream_message.h 166-173). -/
def deviceIdentityViewIdentity (p : Packet) : DeviceIdentity where
  manufacturer := p.w1 &&& 0x007F7F7F
  family := (((p.w2 >>> 24) &&& 0x7F) ||| ((p.w2 >>> 9) &&& 0x3F80)).setWidth 16
  model := (((p.w2 >>> 8) &&& 0x7F) ||| ((p.w2 <<< 7) &&& 0x3F80)).setWidth 16
  revision := ((p.w3 >>> 24) &&& 0x7F) ||| ((p.w3 >>> 9) &&& 0x3F80) ||| ((p.w3 <<< 6) &&& 0x1FC000) |||
    ((p.w3 <<< 21) &&& 0xFE00000)

/-- `endpoint_name_view::payload()` (inc/midi/stream_message.h 196). -/
def endpointNamePayload (p : Packet) : Except Fault (List Byte) := streamPayloadAsString p 2

/-- `product_instance_id_view::payload()` (inc/midi/stream_message.h 219). -/
def productInstanceIdPayload (p : Packet) : Except Fault (List Byte) := streamPayloadAsString p 2

namespace StreamConfigurationView
/-- `protocol()` (inc/midi/stream_message.h 241). -/
def protocol (p : Packet) : Byte := p.byte3 &&& 0b11
/-- `extensions()` (inc/midi/stream_message.h 242). -/
def extensions (p : Packet) : Byte := p.byte4 &&& 0b11
end StreamConfigurationView

namespace FunctionBlockDiscoveryView
/-- `function_block()` (inc/midi/stream_message.h 263). -/
def functionBlock (p : Packet) : Byte := p.byte3
/-- `filter()` (inc/midi/stream_message.h 264). -/
def filter (p : Packet) : Byte := p.byte4 &&& 0b1111
/-- `requests_function_block(block)` (inc/midi/stream_message.h 266-270). -/
def requestsFunctionBlock (p : Packet) (block : Byte) : Bool := functionBlock p == 0xFF || functionBlock p == block
/-- `requests_info()` (inc/midi/stream_message.h 271). -/
def requestsInfo (p : Packet) : Bool := filter p &&& 0b01 != 0
/-- `requests_name()` (inc/midi/stream_message.h 272). -/
def requestsName (p : Packet) : Bool := filter p &&& 0b10 != 0
end FunctionBlockDiscoveryView

/-- `struct function_block_options` (inc/midi/stream_message.h 284-313). -/
structure FunctionBlockOptions where
  active : Bool := true
  direction : Byte := 0b11
  midi1 : Byte := 0
  uiHint : Byte := 0
  ciMessageVersion : Byte := 0
  maxNumSysex8Streams : Byte := 0
deriving DecidableEq, Repr

namespace FunctionBlockInfoView
/-- `active()` (inc/midi/stream_message.h 326). -/
def active (p : Packet) : Bool := p.w0 &&& 0x00008000 != 0
/-- `function_block()` (inc/midi/stream_message.h 327). -/
def functionBlock (p : Packet) : Except Fault Byte := p.getByte7 2
/-- `direction()` (inc/midi/stream_message.h 329). -/
def direction (p : Packet) : Byte := (p.w0 &&& 0b11).setWidth 8
/-- `midi1()` (inc/midi/stream_message.h 330). -/
def midi1 (p : Packet) : Byte := (p.w0 >>> 2).setWidth 8 &&& 0b11
/-- `ui_hint()` (inc/midi/stream_message.h 331). -/
def uiHint (p : Packet) : Byte := (p.w0 >>> 4).setWidth 8 &&& 0b11
/-- `first_group()` (inc/midi/stream_message.h 333). -/
def firstGroup (p : Packet) : Except Fault Byte := p.getByte 4
/-- `num_groups_spanned()` (inc/midi/stream_message.h 334). -/
def numGroupsSpanned (p : Packet) : Except Fault Byte := p.getByte 5
/-- `ci_message_version()` (inc/midi/stream_message.h 336). -/
def ciMessageVersion (p : Packet) : Except Fault Byte := p.getByte 6
/-- `max_num_sysex8_streams()` (inc/midi/stream_message.h 337). -/
def maxNumSysex8Streams (p : Packet) : Except Fault Byte := p.getByte 7
end FunctionBlockInfoView

/-- `function_block_name_view::function_block()` (inc/midi/stream_message.h 359). -/
def functionBlockNameBlock (p : Packet) : Byte := p.byte3 &&& 0x7F

/-- `function_block_name_view::payload()` (inc/midi/stream_message.h 361). -/
def functionBlockNamePayload (p : Packet) : Except Fault (List Byte) := streamPayloadAsString p 3

/-! ## Factories -/

/-- `make_endpoint_discovery_message` (inc/midi/stream_message.h 513-522). -/
def makeEndpointDiscovery (filter major minor : Byte) : Except Fault Packet := do
  let m := streamMessage StreamStatus.endpointDiscovery .complete
  let m ← m.setByte 2 major
  let m ← m.setByte 3 minor
  return { m with w1 := filter.setWidth 32 }

/-- `make_endpoint_info_message` (inc/midi/stream_message.h 524-538). -/
def makeEndpointInfo (numFunctionBlocks : Byte) (staticFunctionBlocks : Bool) (protocols extensions major minor : Byte) :
    Except Fault Packet := do
  let m := streamMessage StreamStatus.endpointInfo .complete
  let m ← m.setByte 2 major
  let m ← m.setByte 3 minor
  let m ← m.setByte 4 ((if staticFunctionBlocks then 0x80 else 0x00) ||| numFunctionBlocks)
  let m ← m.setByte 6 protocols
  m.setByte 7 extensions

/-- `make_device_identity_message` (inc/midi/stream_message.h 540-549). -/
def makeDeviceIdentityMessage (i : DeviceIdentity) : Packet :=
  { streamMessage StreamStatus.deviceIdentity .complete with
    w1 := i.manufacturer
    w2 := ((i.family.setWidth 32 <<< 24) &&& 0x7F000000) ||| ((i.family.setWidth 32 <<< 9) &&& 0x007F0000) |||
      ((i.model.setWidth 32 <<< 8) &&& 0x00007F00) ||| ((i.model.setWidth 32 >>> 7) &&& 0x0000007F)
    w3 := ((i.revision <<< 24) &&& 0x7F000000) ||| ((i.revision <<< 9) &&& 0x007F0000) |||
      ((i.revision >>> 6) &&& 0x00007F00) ||| ((i.revision >>> 21) &&& 0x0000007F) }

/-- `make_endpoint_name_message` (inc/midi/stream_message.h 551-563). -/
def makeEndpointName (format : Format) (n : List Byte) : Except Fault Packet := do
  assert (n.length ≤ 14)
  storeText Packet.setByte (streamMessage StreamStatus.endpointName format) 2 n

/-- `make_product_instance_id_message` (inc/midi/stream_message.h 565-578). -/
def makeProductInstanceId (format : Format) (n : List Byte) : Except Fault Packet := do
  assert (n.length ≤ 14)
  assert (format ≠ .cont)
  storeText Packet.setByte7 (streamMessage StreamStatus.productInstanceId format) 2 n

/-- `make_stream_configuration_request` (inc/midi/stream_message.h 582-589). -/
def makeStreamConfigurationRequest (p e : Byte) : Except Fault Packet := do
  assert (p ≠ 0 && p < 3)
  let m := streamMessage StreamStatus.streamConfigurationRequest .complete
  let m ← m.setByte 2 p
  m.setByte 3 e

/-- `make_stream_configuration_notification` (inc/midi/stream_message.h 591-598). -/
def makeStreamConfigurationNotification (p e : Byte) : Except Fault Packet := do
  assert (p ≠ 0 && p < 3)
  let m := streamMessage StreamStatus.streamConfigurationNotify .complete
  let m ← m.setByte 2 p
  m.setByte 3 e

/-- `make_function_block_discovery_message` (inc/midi/stream_message.h 602-609). -/
def makeFunctionBlockDiscovery (functionBlock filter : Byte) : Except Fault Packet := do
  assert (functionBlock = 0xFF || functionBlock < 32)
  let m := streamMessage StreamStatus.functionBlockDiscovery .complete
  let m ← m.setByte 2 functionBlock
  m.setByte 3 filter

/-- `make_function_block_info_message(function_block, direction, first_group, num_groups_spanned)`
(inc/midi/stream_message.h 611-624). -/
def makeFunctionBlockInfo (functionBlock direction firstGroup numGroupsSpanned : Byte) : Except Fault Packet := do
  assert (functionBlock < 32)
  assert (direction > 0 && direction < 4)
  let m := streamMessage StreamStatus.functionBlockInfo .complete
  let m ← m.setByte 2 (0x80 ||| (functionBlock &&& 0x1F))
  let m ← m.setByte 3 (((direction &&& 0x03) <<< 4) ||| (direction &&& 0x03))
  let m ← m.setByte 4 (firstGroup &&& 0xF)
  m.setByte 5 (numGroupsSpanned &&& 0xF)

/-- `make_function_block_info_message(function_block, options, first_group, num_groups_spanned)`
(inc/midi/stream_message.h 626-647). -/
def makeFunctionBlockInfoWith (functionBlock : Byte) (options : FunctionBlockOptions) (firstGroup numGroupsSpanned : Byte) :
    Except Fault Packet := do
  assert (functionBlock < 32)
  assert (options.direction > 0 && options.direction < 4)
  assert (options.midi1 < 3)
  assert (options.uiHint < 4)
  assert (options.uiHint = 0 || options.direction &&& options.uiHint != 0)
  let m := streamMessage StreamStatus.functionBlockInfo .complete
  let m ← m.setByte 2 ((if options.active then 0x80 else 0x00) ||| (functionBlock &&& 0x1F))
  let m ← m.setByte 3 ((((if options.uiHint ≠ 0 then options.uiHint else options.direction) &&& 0x03) <<< 4) |||
    ((options.midi1 &&& 0x03) <<< 2) ||| (options.direction &&& 0x03))
  let m ← m.setByte 4 (firstGroup &&& 0xF)
  let m ← m.setByte 5 (numGroupsSpanned &&& 0xF)
  let m ← m.setByte 6 options.ciMessageVersion
  m.setByte 7 options.maxNumSysex8Streams

/-- `make_function_block_name_message` (inc/midi/stream_message.h 649-664). -/
def makeFunctionBlockName (format : Format) (functionBlock : Byte) (n : List Byte) : Except Fault Packet := do
  assert (n.length ≤ 13)
  let m ← (streamMessage StreamStatus.functionBlockName format).setByte 2 functionBlock
  storeText Packet.setByte m 3 n

/-! ## Sending names -/

/-- The `while` loop of the `send_*_name` functions, followed by the end packet (inc/midi/stream_message.h 683-689,
726-732): `make` creates a message, `n` is the maximum number of characters per message. The fuel bounds the number of
iterations, the callers pass the length of the name. -/
def sendNameRest (make : Format → List Byte → Except Fault Packet) (n : Nat) : Nat → List Byte → Except Fault (List Packet)
  | 0, name => do
    let p ← make .fin name
    return [p]
  | fuel + 1, name => do
    if name.length > n then
      let p ← make .cont (name.take n)
      let ps ← sendNameRest make n fuel (name.drop n)
      return p :: ps
    else
      let p ← make .fin name
      return [p]

/-- `send_endpoint_name(name, sender)` (inc/midi/stream_message.h 671-691). -/
def sendEndpointName (name : List Byte) : Except Fault (List Packet) := do
  if name.length ≤ 14 then
    let p ← makeEndpointName .complete name
    return [p]
  else
    let p ← makeEndpointName .start (name.take 14)
    let ps ← sendNameRest makeEndpointName 14 name.length (name.drop 14)
    return p :: ps

/-- `send_product_instance_id(id, sender)` (inc/midi/stream_message.h 695-710). -/
def sendProductInstanceId (id : List Byte) : Except Fault (List Packet) := do
  assert (id.length ≤ 16)
  if id.length ≤ 14 then
    let p ← makeProductInstanceId .complete id
    return [p]
  else
    let p ← makeProductInstanceId .start (id.take 14)
    let q ← makeProductInstanceId .fin ((id.drop 14).take 2)
    return [p, q]

/-- `send_function_block_name(function_block, name, sender)` (inc/midi/stream_message.h 714-734). -/
def sendFunctionBlockName (functionBlock : Byte) (name : List Byte) : Except Fault (List Packet) := do
  if name.length ≤ 13 then
    let p ← makeFunctionBlockName .complete functionBlock name
    return [p]
  else
    let p ← makeFunctionBlockName .start functionBlock (name.take 13)
    let ps ← sendNameRest (fun f n => makeFunctionBlockName f functionBlock n) 13 name.length (name.drop 13)
    return p :: ps

end Midi
