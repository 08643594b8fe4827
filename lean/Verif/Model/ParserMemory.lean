import Verif.Model.ByteStream
import Verif.Model.Collector

/-!
# The storage of the byte stream parser

`Verif.Model.ByteStream` leaves out the reservation of memory for `m_sysex.data`. Here is the capacity of that vector, next to the
parser, with the same assumptions about `std::vector` as for the collectors (`Verif.Model.Collector`).
-/

namespace Midi
namespace Parser

/-- The capacity of `m_sysex.data` after `sysex_start()` (src/midi1_byte_stream.cpp 241-245). -/
def storageStart (s : Parser) (cap : Nat) : Nat :=
  if s.hasSysexCallback then
    let cap := vecClearCap cap
    if cap < 1024 then vecReserve cap 1024 else cap
  else cap

/-- The capacity of `m_sysex.data` after `sysex_continue_callback(byte)` (src/midi1_byte_stream.cpp 254-287): the bytes of the
manufacturer id are not collected. -/
def storageContinue (s : Parser) (cap : Nat) : Nat :=
  if s.packetByte = 0 ∨ s.packetByte = 1 ∨ s.packetByte = 2 then cap
  else if (s.packetByte = 3 ∨ s.packetByte = 4) ∧ s.sysex.manufacturerID &&& 0xFF0000 = 0 then cap
  else
    let size := s.sysex.data.length
    vecPushCap (if size = cap then vecReserve cap (cap * 2) else cap) size

/-- The capacity of `m_sysex.data` after `sysex_end_callback()` (src/midi1_byte_stream.cpp 291-307). -/
def storageEnd (s : Parser) (cap : Nat) : Nat :=
  if s.sysex.manufacturerID &&& 0xFF0000 = 0 ∧ s.packetByte < 5 then cap else vecClearCap cap

/-- The capacity of `m_sysex.data` after `feed(byte)` (src/midi1_byte_stream.cpp 35-122), from the parser and the capacity before. -/
def storageFeed (s : Parser) (cap : Nat) (byte : Byte) : Nat :=
  if byte ≥ SystemStatus.clock then cap
  else if s.packet.type = PacketType.data ∧ byte < 0x80 then
    if s.hasSysexCallback then s.storageContinue cap else cap
  else if s.packet.type = PacketType.data ∧ byte = 0xF7 then
    if s.hasSysexCallback then s.storageEnd cap else cap
  else if byte = 0xF0 then s.storageStart cap
  else cap

/-- The parser and the capacity after feeding bytes. -/
def storageFeedAll (s : Parser) (cap : Nat) : List Byte → Except Fault (Parser × Nat)
  | [] => .ok (s, cap)
  | b :: bs => do
    let (t, _) ← s.feed b
    t.storageFeedAll (s.storageFeed cap b) bs

/-- The parser and the capacity after a sequence of operations; `reset()` clears the message (src/midi1_byte_stream.cpp 139). -/
def storageRun (s : Parser) (cap : Nat) : List Op → Except Fault (Parser × Nat)
  | [] => .ok (s, cap)
  | .feed bs :: os => do
    let (t, cap) ← s.storageFeedAll cap bs
    t.storageRun cap os
  | .reset :: os => s.reset.storageRun (vecClearCap cap) os
  | .setGroup g :: os => (s.setGroup g).storageRun cap os
  | .enable on :: os => (s.enableCallbacks on).storageRun cap os

end Parser
end Midi
