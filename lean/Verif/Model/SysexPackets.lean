import Verif.Model.Packet

/-!
# Sysex packets

Models inc/midi/data_message.h (7 bit sysex in packets of type 3) and inc/midi/extended_data_message.h (8 bit sysex in
packets of type 5).
-/

namespace Midi

/-! ## data_message.h -/

/-- `data_message(status)` (inc/midi/data_message.h 107-110). -/
def dataMessage (status : Byte) : Packet := { w0 := 0x30000000 ||| (status.setWidth 32 <<< 16) }

/-- The status byte of a sysex packet of some format, `data_status::sysex7_complete` etc. and
`extended_data_status::sysex8_complete` etc. (inc/midi/universal_packet.h 103-108, 136-140). -/
def Format.status : Format → Byte
  | .complete => 0x00
  | .start => 0x10
  | .cont => 0x20
  | .fin => 0x30

/-- `sysex7_packet(status, group)` (inc/midi/data_message.h 114-118). -/
def sysex7Packet (status group : Byte) : Except Fault Packet := (dataMessage status).setGroup group

/-- `make_sysex7_complete_packet`, `make_sysex7_start_packet`, `make_sysex7_continue_packet`,
`make_sysex7_end_packet` (inc/midi/data_message.h 141-156). -/
def makeSysex7 (f : Format) (group : Byte) : Except Fault Packet := sysex7Packet f.status group

/-- `sysex7_packet::format()` and `sysex7_packet_view::format()` (inc/midi/data_message.h 54, 82). -/
def sysex7Format (p : Packet) : Format := Format.ofCode ((p.status >>> 4) &&& 3)

/-- `sysex7_packet::payload_size()` and `sysex7_packet_view::payload_size()` (inc/midi/data_message.h 59, 83). -/
def sysex7PayloadSize (p : Packet) : Nat := (p.status &&& 0x0F).toNat

/-- `sysex7_packet::payload_byte(b)` and `sysex7_packet_view::payload_byte(b)` (inc/midi/data_message.h 56, 84). The
sum `2 + b` wraps for the last two values of `size_t`; the model is for positions below these. -/
def sysex7PayloadByte (p : Packet) (b : Nat) : Except Fault Byte := p.getByte (2 + b)

/-- `sysex7_packet::set_payload_byte(b, data)` (inc/midi/data_message.h 120-123). The sum `2 + b` wraps for the last two values of
`size_t`; the model is for positions below these. -/
def sysex7SetPayloadByte (p : Packet) (b : Nat) (v : Byte) : Except Fault Packet := p.setByte7 (2 + b) v

/-- `sysex7_packet::set_payload_size(size)` (inc/midi/data_message.h 125-129). -/
def sysex7SetPayloadSize (p : Packet) (size : Nat) : Except Fault Packet := do
  assert (size ≤ 6)
  p.setByte 1 ((p.status &&& 0xF0) + (BitVec.ofNat 8 size &&& 0x0F))

/-- `sysex7_packet::add_payload_byte(byte)` (inc/midi/data_message.h 131-137). -/
def sysex7AddPayloadByte (p : Packet) (byte : Byte) : Except Fault Packet := do
  let size := sysex7PayloadSize p
  assert (size < 6)
  let p ← p.setByte7 (2 + size) byte
  sysex7SetPayloadSize p (size + 1)

/-- `is_data_message(p)` (inc/midi/data_message.h 160-163). -/
def isDataMessage (p : Packet) : Bool := p.type == PacketType.data

/-- `is_sysex7_packet(p)` (inc/midi/data_message.h 164-167). -/
def isSysex7Packet (p : Packet) : Bool :=
  isDataMessage p && decide ((p.status &&& 0xF0) ≤ 0x30) && decide ((p.status &&& 0x0F) ≤ 6)

/-- `sysex7_packet_view(p)`, whose constructor asserts `is_sysex7_packet(p)` (inc/midi/data_message.h 74-78). The view
is the packet itself. -/
def sysex7View (p : Packet) : Except Fault Packet := do
  assert (isSysex7Packet p)
  return p

/-- `sysex7_packet_view::status()` (inc/midi/data_message.h 81). -/
def sysex7ViewStatus (p : Packet) : Byte := p.status &&& 0xF0

/-- `as_sysex7_packet_view(p)` (inc/midi/data_message.h 168-174). -/
def asSysex7View (p : Packet) : Except Fault (Option Packet) :=
  if isSysex7Packet p then do return some (← sysex7View p) else return none

/-! ## extended_data_message.h -/

/-- `extended_data_message(status)` (inc/midi/extended_data_message.h 114-117). -/
def extendedDataMessage (status : Byte) : Packet := { w0 := 0x50000000 ||| (status.setWidth 32 <<< 16) }

/-- `sysex8_packet()` (inc/midi/extended_data_message.h 121-124). -/
def sysex8Default : Packet := { w0 := 0x50000000 ||| 0x00010000 }

/-- `sysex8_packet(status, stream_id, group)` (inc/midi/extended_data_message.h 125-128). The shifts are done on `int`;
`group << 24` is below `2^32` and thus converts to the same bits. -/
def sysex8Packet (status stream group : Byte) : Packet :=
  { w0 := 0x50010000 ||| (group.setWidth 32 <<< 24) ||| (status.setWidth 32 <<< 16) ||| (stream.setWidth 32 <<< 8) }

/-- `make_sysex8_complete_packet`, `make_sysex8_start_packet`, `make_sysex8_continue_packet`,
`make_sysex8_end_packet` (inc/midi/extended_data_message.h 175-190). -/
def makeSysex8 (f : Format) (stream group : Byte) : Packet := sysex8Packet f.status stream group

/-- `sysex8_packet::format()` and `sysex8_packet_view::format()` (inc/midi/extended_data_message.h 56, 86). -/
def sysex8Format (p : Packet) : Format := Format.ofCode ((p.status >>> 4) &&& 3)

/-- `sysex8_packet::stream_id()` and `sysex8_packet_view::stream_id()` (inc/midi/extended_data_message.h 58, 87). -/
def sysex8StreamId (p : Packet) : Except Fault Byte := p.getByte 2

/-- `sysex8_packet::set_stream_id(i)` (inc/midi/extended_data_message.h 130-133). -/
def sysex8SetStreamId (p : Packet) (i : Byte) : Except Fault Packet := p.setByte 2 i

/-- `sysex8_packet::payload_size()` and `sysex8_packet_view::payload_size()`
(inc/midi/extended_data_message.h 135-139, 194-198). -/
def sysex8PayloadSize (p : Packet) : Nat :=
  let s := (p.status &&& 0x0F).toNat
  if s > 0 then s - 1 else 0

/-- `sysex8_packet::payload_byte(b)` and `sysex8_packet_view::payload_byte(b)`
(inc/midi/extended_data_message.h 61, 89). -/
def sysex8PayloadByte (p : Packet) (b : Nat) : Except Fault Byte := p.getByte (3 + b)

/-- `sysex8_packet::set_payload_size(size)` (inc/midi/extended_data_message.h 141-145). -/
def sysex8SetPayloadSize (p : Packet) (size : Nat) : Except Fault Packet := do
  assert (size ≤ 13)
  p.setByte 1 ((p.status &&& 0xF0) + (BitVec.ofNat 8 (size + 1) &&& 0x0F))

/-- `sysex8_packet::set_payload_byte(b, data)` (inc/midi/extended_data_message.h 147-150). -/
def sysex8SetPayloadByte (p : Packet) (b : Nat) (v : Byte) : Except Fault Packet := p.setByte (3 + b) v

/-- `sysex8_packet::add_payload_byte(byte)` (inc/midi/extended_data_message.h 152-158). -/
def sysex8AddPayloadByte (p : Packet) (byte : Byte) : Except Fault Packet := do
  let size := sysex8PayloadSize p
  assert (size < 13)
  let p ← p.setByte (3 + size) byte
  sysex8SetPayloadSize p (size + 1)

/-- `is_extended_data_message(p)` (inc/midi/extended_data_message.h 162-165). -/
def isExtendedDataMessage (p : Packet) : Bool := p.type == PacketType.extendedData

/-- `is_sysex8_packet(p)` (inc/midi/extended_data_message.h 167-171). -/
def isSysex8Packet (p : Packet) : Bool :=
  isExtendedDataMessage p && decide ((p.status &&& 0xF0) ≤ 0x30) && decide ((p.status &&& 0x0F) > 0) &&
    decide ((p.status &&& 0x0F) ≤ 14)

/-- `sysex8_packet_view(p)`, whose constructor asserts `is_sysex8_packet(p)`
(inc/midi/extended_data_message.h 79-83). The view is the packet itself. -/
def sysex8View (p : Packet) : Except Fault Packet := do
  assert (isSysex8Packet p)
  return p

/-- `as_sysex8_packet_view(p)` (inc/midi/extended_data_message.h 200-206). -/
def asSysex8View (p : Packet) : Except Fault (Option Packet) :=
  if isSysex8Packet p then do return some (← sysex8View p) else return none

end Midi
