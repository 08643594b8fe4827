import Verif.Model.Stream

/-!
# Flex data messages

Models inc/midi/flex_data_message.h.
-/

namespace Midi

/-- `enum class packet_address` (inc/midi/universal_packet.h 64). The type has other values; the model has the two named ones
for arguments, and `flexAddressCode` for the two bits in a packet. -/
inductive Address where
  | channel | group
deriving DecidableEq, Repr

/-- The two bit code of a `packet_address` (inc/midi/universal_packet.h 64). -/
def Address.code : Address → Byte
  | .channel => 0
  | .group => 1

/-- `flex_data_message(group)` (inc/midi/flex_data_message.h 133-136). -/
def flexDefault (group : Byte) : Packet := { w0 := 0xD0000000 ||| ((group &&& 0x0F).setWidth 32 <<< 24) }

/-- `flex_data_message(group, format, address, channel, status_bank, status, data1, data2, data3)`
(inc/midi/flex_data_message.h 137-155). -/
def flexMessage (group : Byte) (format : Format) (address : Address) (channel bank status : Byte) (d1 d2 d3 : Word) :
    Except Fault Packet := do
  assert (channel ≤ 15)
  assert (address = .channel || channel = 0)
  return {
    w0 := 0xD0000000 ||| ((group &&& 0x0F).setWidth 32 <<< 24) |||
      (((format.code.setWidth 32 <<< 6) ||| (address.code.setWidth 32 <<< 4) ||| (channel &&& 0x0F).setWidth 32) <<< 16) |||
      (bank.setWidth 32 <<< 8) ||| status.setWidth 32
    w1 := d1, w2 := d2, w3 := d3 }

/-- `flex_data_message::format()`, `flex_data_message_view::format()` (inc/midi/flex_data_message.h 50, 74). -/
def flexFormat (p : Packet) : Format := Format.ofCode ((p.byte2 &&& 0xC0) >>> 6)

/-- `flex_data_message::address()`, `flex_data_message_view::address()` as a number (inc/midi/flex_data_message.h 51, 75). -/
def flexAddressCode (p : Packet) : Byte := (p.byte2 &&& 0x30) >>> 4

/-- `flex_data_message_view::group()` (inc/midi/flex_data_message.h 73). -/
def flexGroup (p : Packet) : Byte := p.group

/-- `flex_data_message_view::channel()` (inc/midi/flex_data_message.h 76). -/
def flexChannel (p : Packet) : Byte := p.byte2 &&& 0x0F

/-- `status_bank()` (inc/midi/flex_data_message.h 52, 77). -/
def flexStatusBank (p : Packet) : Byte := p.byte3

/-- `status()` (inc/midi/flex_data_message.h 53, 78). -/
def flexStatus (p : Packet) : Byte := p.byte4

/-- `data1()`, `data2()`, `data3()` of `flex_data_message_view` (inc/midi/flex_data_message.h 79-81). -/
def flexData (p : Packet) : Word × Word × Word := (p.w1, p.w2, p.w3)

/-- `flex_data_message::payload_as_string(p)` and `payload_as_string()` of the view (inc/midi/flex_data_message.h 83,
159-178). -/
def flexPayloadAsString (p : Packet) : Except Fault (List Byte) := readText Packet.getByte p 12

/-- `is_flex_data_message(p)` (inc/midi/flex_data_message.h 182-185). -/
def isFlexDataMessage (p : Packet) : Bool := p.type == PacketType.flexData

/-- The constructor of `flex_data_message_view` (inc/midi/flex_data_message.h 67-71). -/
def flexView (p : Packet) : Except Fault Packet := do
  assert (p.type == PacketType.flexData)
  return p

/-- `as_flex_data_message_view(p)` (inc/midi/flex_data_message.h 189-195). -/
def asFlexData (p : Packet) : Except Fault (Option Packet) :=
  if isFlexDataMessage p then some <$> flexView p else .ok none

/-- `make_flex_data_message` (inc/midi/flex_data_message.h 199-210). -/
def makeFlexData (group : Byte) (format : Format) (address : Address) (channel bank status : Byte) (d1 d2 d3 : Word) :
    Except Fault Packet := flexMessage group format address channel bank status d1 d2 d3

/-- `make_flex_data_text_message` (inc/midi/flex_data_message.h 214-235). -/
def makeFlexText (group : Byte) (format : Format) (address : Address) (channel bank status : Byte) (text : List Byte) :
    Except Fault Packet := do
  assert (text.length ≤ 12)
  assert (format = .complete || format = .fin || text.length = 12)
  let m ← flexMessage group format address channel bank status 0 0 0
  storeText Packet.setByte m 4 text

/-- `make_set_tempo_message` (inc/midi/flex_data_message.h 239-243). -/
def makeSetTempo (group : Byte) (tempo : Word) : Except Fault Packet :=
  makeFlexData group .complete .group 0 0x00 0x00 tempo 0 0

/-- `make_set_time_signature_message` (inc/midi/flex_data_message.h 245-255). -/
def makeSetTimeSignature (group numerator denominator nr32 : Byte) : Except Fault Packet := do
  let m ← makeFlexData group .complete .group 0 0x00 0x01 0 0 0
  let m ← m.setByte 4 numerator
  let m ← m.setByte 5 denominator
  m.setByte 6 nr32

/-- `make_set_metronome_message` (inc/midi/flex_data_message.h 257-273). -/
def makeSetMetronome (group clocks accent1 accent2 accent3 sub1 sub2 : Byte) : Except Fault Packet := do
  let m ← makeFlexData group .complete .group 0 0x00 0x02 0 0 0
  let m ← m.setByte 4 clocks
  let m ← m.setByte 5 accent1
  let m ← m.setByte 6 accent2
  let m ← m.setByte 7 accent3
  let m ← m.setByte 8 sub1
  m.setByte 9 sub2

/-- `make_set_key_signature_message` (inc/midi/flex_data_message.h 275-281). -/
def makeSetKeySignature (group : Byte) (address : Address) (channel sharps tonic : Byte) : Except Fault Packet := do
  let m ← makeFlexData group .complete address channel 0x00 0x05 0 0 0
  m.setByte 4 ((sharps <<< 4) ||| (tonic &&& 0x0F))

/-- `make_set_chord_message` (inc/midi/flex_data_message.h 283-287). -/
def makeSetChord (group : Byte) (address : Address) (channel : Byte) (d1 d2 d3 : Word) : Except Fault Packet :=
  makeFlexData group .complete address channel 0x00 0x06 d1 d2 d3

end Midi
