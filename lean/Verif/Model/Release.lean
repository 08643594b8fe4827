import Verif.Model.FlexData
import Verif.Model.Senders
import Verif.Model.CapabilityInquiry

/-!
# The library built without assertions

The rest of the model describes a build in which `assert` is active: an argument outside of the range a function asserts ends
the program. With `NDEBUG` defined, as in release builds, `assert(…)` does nothing and the function goes on with the argument
it got. This file models the functions with assertions as they behave then. A function that can not fault in such a build
returns its result; the only fault left is an access outside of an array or vector, which C++ does not define.
-/

namespace Midi.Release

/-! ## universal_packet.h -/

/-- `set_type(t)` without its assertion (inc/midi/universal_packet.h 403-409); `t` is converted to `unsigned` before the
shift. -/
def setType (p : Packet) (t : Byte) : Packet :=
  { p with w0 := (p.w0 &&& 0x0FFFFFFF) ||| (t.setWidth 32 <<< 28) }

/-- `set_group(c)` without its assertion (inc/midi/universal_packet.h 413-418). The shift is done on `int`, the value is below
`2^32` and thus converts to the same bits. -/
def setGroup (p : Packet) (c : Byte) : Packet :=
  { p with w0 := (p.w0 &&& 0xF0FFFFFF) ||| (c.setWidth 32 <<< 24) }

/-- `get_byte(b)` without its assertion (inc/midi/universal_packet.h 431-440): `data[b / 4]` is outside of the array for
`b ≥ 16`. -/
def getByte (p : Packet) (b : Nat) : Except Fault Byte :=
  if b < 16 then .ok (p.byteAt b) else .error .outOfBounds

/-- `set_byte(b, v)` without its assertion (inc/midi/universal_packet.h 444-466): the condition in line 447 stays. -/
def setByte (p : Packet) (b : Nat) (v : Byte) : Packet := if b < 16 then p.putByte b v else p

/-- `set_byte_7bit(b, v)` (inc/midi/universal_packet.h 353). -/
def setByte7 (p : Packet) (b : Nat) (v : Byte) : Packet := setByte p b (v &&& 0x7F)

/-- `channel()` without its assertion (inc/midi/universal_packet.h 344-348). -/
def channel (p : Packet) : Byte := p.byte2 &&& 0x0F

/-! ## data_message.h and extended_data_message.h -/

/-- `sysex7_packet(status, group)` (inc/midi/data_message.h 114-118). -/
def sysex7Packet (status group : Byte) : Packet := setGroup (dataMessage status) group

/-- `make_sysex7_complete_packet`, `make_sysex7_start_packet`, `make_sysex7_continue_packet`,
`make_sysex7_end_packet` (inc/midi/data_message.h 141-156). -/
def makeSysex7 (f : Format) (group : Byte) : Packet := sysex7Packet f.status group

/-- `sysex7_packet::set_payload_byte(b, data)` (inc/midi/data_message.h 120-123). -/
def sysex7SetPayloadByte (p : Packet) (b : Nat) (v : Byte) : Packet := setByte7 p (2 + b) v

/-- `sysex7_packet::set_payload_size(size)` without its assertion (inc/midi/data_message.h 125-129). -/
def sysex7SetPayloadSize (p : Packet) (size : Nat) : Packet :=
  setByte p 1 ((p.status &&& 0xF0) + (BitVec.ofNat 8 size &&& 0x0F))

/-- `sysex7_packet::add_payload_byte(byte)` without its assertion (inc/midi/data_message.h 131-137). -/
def sysex7AddPayloadByte (p : Packet) (byte : Byte) : Packet :=
  let size := sysex7PayloadSize p
  let p := setByte7 p (2 + size) byte
  sysex7SetPayloadSize p (size + 1)

/-- `sysex8_packet::set_payload_byte(b, data)` (inc/midi/extended_data_message.h 147-150). -/
def sysex8SetPayloadByte (p : Packet) (b : Nat) (v : Byte) : Packet := setByte p (3 + b) v

/-- `sysex8_packet::set_payload_size(size)` without its assertion (inc/midi/extended_data_message.h 141-145). -/
def sysex8SetPayloadSize (p : Packet) (size : Nat) : Packet :=
  setByte p 1 ((p.status &&& 0xF0) + (BitVec.ofNat 8 (size + 1) &&& 0x0F))

/-- `sysex8_packet::add_payload_byte(byte)` without its assertion (inc/midi/extended_data_message.h 152-158). -/
def sysex8AddPayloadByte (p : Packet) (byte : Byte) : Packet :=
  let size := sysex8PayloadSize p
  let p := setByte p (3 + size) byte
  sysex8SetPayloadSize p (size + 1)

/-! ## Texts -/

/-- The loop storing characters into a packet from byte `b` on (inc/midi/stream_message.h 555-561, 570-576, 656-662,
inc/midi/flex_data_message.h 227-233). -/
def storeText (set : Packet → Nat → Byte → Packet) (p : Packet) (b : Nat) : List Byte → Packet
  | [] => p
  | c :: cs =>
    let p := set p b c
    if b + 1 ≥ 16 then p else storeText set p (b + 1) cs

/-! ## flex_data_message.h -/

/-- `flex_data_message(group, format, address, channel, status_bank, status, data1, data2, data3)` without its assertions
(inc/midi/flex_data_message.h 137-155). -/
def flexMessage (group : Byte) (format : Format) (address : Address) (channel bank status : Byte) (d1 d2 d3 : Word) :
    Packet where
  w0 := 0xD0000000 ||| ((group &&& 0x0F).setWidth 32 <<< 24) |||
    (((format.code.setWidth 32 <<< 6) ||| (address.code.setWidth 32 <<< 4) ||| (channel &&& 0x0F).setWidth 32) <<< 16) |||
    (bank.setWidth 32 <<< 8) ||| status.setWidth 32
  w1 := d1
  w2 := d2
  w3 := d3

/-- `make_flex_data_text_message` without its assertions (inc/midi/flex_data_message.h 214-235). -/
def makeFlexText (group : Byte) (format : Format) (address : Address) (channel bank status : Byte) (text : List Byte) :
    Packet :=
  storeText setByte (flexMessage group format address channel bank status 0 0 0) 4 text

/-! ## stream_message.h -/

/-- `make_endpoint_name_message` without its assertion (inc/midi/stream_message.h 551-563). -/
def makeEndpointName (format : Format) (n : List Byte) : Packet :=
  storeText setByte (streamMessage StreamStatus.endpointName format) 2 n

/-- `make_product_instance_id_message` without its assertions (inc/midi/stream_message.h 565-578). -/
def makeProductInstanceId (format : Format) (n : List Byte) : Packet :=
  storeText setByte7 (streamMessage StreamStatus.productInstanceId format) 2 n

/-- `make_stream_configuration_request` without its assertion (inc/midi/stream_message.h 582-589). -/
def makeStreamConfigurationRequest (p e : Byte) : Packet :=
  setByte (setByte (streamMessage StreamStatus.streamConfigurationRequest .complete) 2 p) 3 e

/-- `make_stream_configuration_notification` without its assertion (inc/midi/stream_message.h 591-598). -/
def makeStreamConfigurationNotification (p e : Byte) : Packet :=
  setByte (setByte (streamMessage StreamStatus.streamConfigurationNotify .complete) 2 p) 3 e

/-- `make_function_block_discovery_message` without its assertion (inc/midi/stream_message.h 602-609). -/
def makeFunctionBlockDiscovery (functionBlock filter : Byte) : Packet :=
  setByte (setByte (streamMessage StreamStatus.functionBlockDiscovery .complete) 2 functionBlock) 3 filter

/-- `make_function_block_info_message(function_block, direction, first_group, num_groups_spanned)` without its assertions
(inc/midi/stream_message.h 611-624). -/
def makeFunctionBlockInfo (functionBlock direction firstGroup numGroupsSpanned : Byte) : Packet :=
  let m := streamMessage StreamStatus.functionBlockInfo .complete
  let m := setByte m 2 (0x80 ||| (functionBlock &&& 0x1F))
  let m := setByte m 3 (((direction &&& 0x03) <<< 4) ||| (direction &&& 0x03))
  let m := setByte m 4 (firstGroup &&& 0xF)
  setByte m 5 (numGroupsSpanned &&& 0xF)

/-- `make_function_block_info_message(function_block, options, first_group, num_groups_spanned)` without its assertions
(inc/midi/stream_message.h 626-647). -/
def makeFunctionBlockInfoWith (functionBlock : Byte) (options : FunctionBlockOptions) (firstGroup numGroupsSpanned : Byte) :
    Packet :=
  let m := streamMessage StreamStatus.functionBlockInfo .complete
  let m := setByte m 2 ((if options.active then 0x80 else 0x00) ||| (functionBlock &&& 0x1F))
  let m := setByte m 3 ((((if options.uiHint ≠ 0 then options.uiHint else options.direction) &&& 0x03) <<< 4) |||
    ((options.midi1 &&& 0x03) <<< 2) ||| (options.direction &&& 0x03))
  let m := setByte m 4 (firstGroup &&& 0xF)
  let m := setByte m 5 (numGroupsSpanned &&& 0xF)
  let m := setByte m 6 options.ciMessageVersion
  setByte m 7 options.maxNumSysex8Streams

/-- `make_function_block_name_message` without its assertion (inc/midi/stream_message.h 649-664). -/
def makeFunctionBlockName (format : Format) (functionBlock : Byte) (n : List Byte) : Packet :=
  storeText setByte (setByte (streamMessage StreamStatus.functionBlockName format) 2 functionBlock) 3 n

/-- The `while` loop of the `send_*_name` functions, followed by the end packet (inc/midi/stream_message.h 683-689,
726-732), see `Midi.sendNameRest`. -/
def sendNameRest (make : Format → List Byte → Packet) (n : Nat) : Nat → List Byte → List Packet
  | 0, name => [make .fin name]
  | fuel + 1, name =>
    if name.length > n then make .cont (name.take n) :: sendNameRest make n fuel (name.drop n) else [make .fin name]

/-- `send_endpoint_name(name, sender)` (inc/midi/stream_message.h 671-691). -/
def sendEndpointName (name : List Byte) : List Packet :=
  if name.length ≤ 14 then [makeEndpointName .complete name]
  else makeEndpointName .start (name.take 14) :: sendNameRest makeEndpointName 14 name.length (name.drop 14)

/-- `send_product_instance_id(id, sender)` without its assertion (inc/midi/stream_message.h 695-710). -/
def sendProductInstanceId (id : List Byte) : List Packet :=
  if id.length ≤ 14 then [makeProductInstanceId .complete id]
  else [makeProductInstanceId .start (id.take 14), makeProductInstanceId .fin ((id.drop 14).take 2)]

/-- `send_function_block_name(function_block, name, sender)` (inc/midi/stream_message.h 714-734). -/
def sendFunctionBlockName (functionBlock : Byte) (name : List Byte) : List Packet :=
  if name.length ≤ 13 then [makeFunctionBlockName .complete functionBlock name]
  else makeFunctionBlockName .start functionBlock (name.take 13) ::
    sendNameRest (fun f n => makeFunctionBlockName f functionBlock n) 13 name.length (name.drop 13)

/-! ## sysex.h and sysex.cpp -/

/-- `sysex7::add_uint7(value)` without its assertion (inc/midi/sysex.h 244-250). -/
def addUint7 (s : Sysex) (v : Byte) : Sysex := { s with data := s.data ++ [v &&& 0x7F] }

/-- `sysex7::add_data(d, data_size)` without its assertions (inc/midi/sysex.h 252-258); `d` is the list of the `data_size`
bytes pointed to. With size 0 an empty range is inserted. -/
def addData (s : Sysex) (d : List Byte) : Sysex := { s with data := s.data ++ d }

/-- `sysex7::add_uint14(value)` without its assertion (inc/midi/sysex.h 260-266). -/
def addUint14 (s : Sysex) (v : U16) : Sysex :=
  { s with data := s.data ++ [(v &&& 0x7F).setWidth 8, ((v >>> 7) &&& 0x7F).setWidth 8] }

/-- `sysex7::make_uint14(data_pos)` without its assertion (inc/midi/sysex.h 268-272). -/
def makeUint14 (s : Sysex) (pos : Nat) : Except Fault U16 := do
  let d0 ← index s.data pos
  let d1 ← index s.data (pos + 1)
  return d0.setWidth 16 ||| (d1.setWidth 16 <<< 7)

/-- `sysex7::add_uint28(value)` without its assertion (inc/midi/sysex.h 274-283). -/
def addUint28 (s : Sysex) (v : Word) : Sysex :=
  { s with data := s.data ++ [(v &&& 0x7F).setWidth 8, ((v >>> 7) &&& 0x7F).setWidth 8,
    ((v >>> 14) &&& 0x7F).setWidth 8, ((v >>> 21) &&& 0x7F).setWidth 8] }

/-- `sysex7::make_uint28(data_pos)` without its assertion (inc/midi/sysex.h 285-289). -/
def makeUint28 (s : Sysex) (pos : Nat) : Except Fault Word := do
  let d0 ← index s.data pos
  let d1 ← index s.data (pos + 1)
  let d2 ← index s.data (pos + 2)
  let d3 ← index s.data (pos + 3)
  return d0.setWidth 32 ||| (d1.setWidth 32 <<< 7) ||| (d2.setWidth 32 <<< 14) ||| (d3.setWidth 32 <<< 21)

/-- `sysex7::make_uint32(data_pos)` without its assertion (inc/midi/sysex.h 301-305). -/
def makeUint32 (s : Sysex) (pos : Nat) : Except Fault Word := do
  let d0 ← index s.data pos
  let d1 ← index s.data (pos + 1)
  let d2 ← index s.data (pos + 2)
  let d3 ← index s.data (pos + 3)
  let d4 ← index s.data (pos + 4)
  return d0.setWidth 32 ||| (d1.setWidth 32 <<< 7) ||| (d2.setWidth 32 <<< 14) ||| (d3.setWidth 32 <<< 21) |||
    ((d4 &&& 0x0F).setWidth 32 <<< 28)

/-- `sysex7::add_device_identity(identity)` without its assertions (src/sysex.cpp 83-97). -/
def addDeviceIdentity (s : Sysex) (i : DeviceIdentity) : Sysex :=
  let s := { s with data := s.data ++ [((i.manufacturer >>> 16) &&& 0x7F).setWidth 8] }
  let s := { s with data := s.data ++ [((i.manufacturer >>> 8) &&& 0x7F).setWidth 8] }
  let s := { s with data := s.data ++ [(i.manufacturer &&& 0x7F).setWidth 8] }
  addUint28 (addUint14 (addUint14 s i.family) i.model) i.revision

/-- `sysex7::make_device_identity(data_pos)` without its assertion (src/sysex.cpp 101-113). -/
def makeDeviceIdentity (s : Sysex) (pos : Nat) : Except Fault DeviceIdentity := do
  let d0 ← index s.data pos
  let d1 ← index s.data (pos + 1)
  let d2 ← index s.data (pos + 2)
  let family ← makeUint14 s (pos + 3)
  let model ← makeUint14 s (pos + 5)
  let revision ← makeUint28 s (pos + 7)
  return { manufacturer := d0.setWidth 32 <<< 16 ||| d1.setWidth 32 <<< 8 ||| d2.setWidth 32, family, model, revision }

/-- The loop over the data bytes in `send_sysex7` (inc/midi/sysex.h 327-340), see `Midi.sendSysex7Loop`. -/
def sendSysex7Loop (group : Byte) (p : Packet) (left : Nat) : List Byte → List Packet × Packet
  | [] => ([], p)
  | b :: bs =>
    let p := sysex7AddPayloadByte p b
    let left := left - 1
    if sysex7PayloadSize p = 6 then
      let q := makeSysex7 (if left ≤ 6 then .fin else .cont) group
      let r := sendSysex7Loop group q left bs
      (p :: r.1, r.2)
    else sendSysex7Loop group p left bs

/-- `send_sysex7(sysex, group, sender)` (inc/midi/sysex.h 309-346): the packets passed to `sender`, in order. -/
def sendSysex7 (s : Sysex) (group : Byte) : List Packet :=
  let p := makeSysex7 (if s.totalDataSize ≤ 6 then .complete else .start) group
  let p := sysex7AddPayloadByte p (((s.manufacturerID >>> 16) &&& 0x7F).setWidth 8)
  let p :=
    if s.manufacturerID &&& 0x00FFFF ≠ 0 then
      let p := sysex7AddPayloadByte p (((s.manufacturerID >>> 8) &&& 0x7F).setWidth 8)
      sysex7AddPayloadByte p ((s.manufacturerID &&& 0x7F).setWidth 8)
    else p
  let r := sendSysex7Loop group p s.data.length s.data
  if sysex7PayloadSize r.2 ≠ 0 then r.1 ++ [r.2] else r.1

/-- The loop over the data bytes in `send_sysex8` (inc/midi/sysex.h 385-397). -/
def sendSysex8Loop (stream group : Byte) (p : Packet) (left : Nat) : List Byte → List Packet × Packet
  | [] => ([], p)
  | b :: bs =>
    let p := sysex8AddPayloadByte p b
    let left := left - 1
    if sysex8PayloadSize p = 13 then
      let q := makeSysex8 (if left ≤ 13 then .fin else .cont) stream group
      let r := sendSysex8Loop stream group q left bs
      (p :: r.1, r.2)
    else sendSysex8Loop stream group p left bs

/-- `send_sysex8(sysex, stream_id, group, sender)` (inc/midi/sysex.h 362-403): the packets passed to `sender`. -/
def sendSysex8 (s : Sysex) (stream group : Byte) : List Packet :=
  let p := makeSysex8 (if s.totalDataSize ≤ 13 then .complete else .start) stream group
  let p :=
    if s.manufacturerID &&& 0x00FFFF ≠ 0 then
      let p := sysex8AddPayloadByte p ((0x80 : Byte) + ((s.manufacturerID >>> 8) &&& 0x7F).setWidth 8)
      sysex8AddPayloadByte p ((s.manufacturerID &&& 0x7F).setWidth 8)
    else
      let p := sysex8AddPayloadByte p 0
      sysex8AddPayloadByte p (((s.manufacturerID >>> 16) &&& 0x7F).setWidth 8)
  let r := sendSysex8Loop stream group p s.data.length s.data
  if sysex8PayloadSize r.2 ≠ 0 then r.1 ++ [r.2] else r.1

/-! ## universal_sysex.h and capability_inquiry.cpp -/

/-- `message::set_device_id(i)` without its assertions (inc/midi/universal_sysex.h 299-304): `data[0]` is outside of an empty
vector. -/
def setDeviceId (s : Sysex) (i : Byte) : Except Fault Sysex := CI.store s 0 (i &&& 0x7F)

/-- `message::message(subtype, source_muid, destination_muid, device_id)` without its assertions
(src/capability_inquiry.cpp 34-53). -/
def makeMessage (subtype : Byte) (source dest : Word) (deviceId : Byte) : Sysex :=
  ⟨universalNonRealtime, CI.headerBytes subtype source dest deviceId⟩

/-- `message::set_source_muid(m)` without its assertion (src/capability_inquiry.cpp 81-89). -/
def setSourceMuid (s : Sysex) (m : Word) : Except Fault Sysex := do
  let s ← CI.store s 4 ((m &&& 0x7F).setWidth 8)
  let s ← CI.store s 5 (((m >>> 7) &&& 0x7F).setWidth 8)
  let s ← CI.store s 6 (((m >>> 14) &&& 0x7F).setWidth 8)
  CI.store s 7 (((m >>> 21) &&& 0x7F).setWidth 8)

/-- `message::set_destination_muid(m)` without its assertion (src/capability_inquiry.cpp 93-101). -/
def setDestinationMuid (s : Sysex) (m : Word) : Except Fault Sysex := do
  let s ← CI.store s 8 ((m &&& 0x7F).setWidth 8)
  let s ← CI.store s 9 (((m >>> 7) &&& 0x7F).setWidth 8)
  let s ← CI.store s 10 (((m >>> 14) &&& 0x7F).setWidth 8)
  CI.store s 11 (((m >>> 21) &&& 0x7F).setWidth 8)

end Midi.Release
