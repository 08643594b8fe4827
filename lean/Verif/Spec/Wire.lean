import Verif.Model.Packet
import Verif.Spec.WordStream

/-!
# Packets sent as bytes

Two programs written with the library: one sends packets over a connection that transports bytes (a network, a file), the other one
puts them together again.
-/

namespace Midi.Spec

/-- The sender writes the bytes of a packet: `for (b = 0; b < 4 * p.size(); ++b) write(p.get_byte(b))`. -/
def sendBytes (p : Packet) : Except Fault (List Byte) := (List.range (4 * p.size)).mapM p.getByte

/-- The receiver has a packet and the number of bytes of it that have arrived. -/
structure PacketReader where
  packet : Packet := {}
  count : Nat := 0
deriving DecidableEq

/-- The receiver reads a byte: `if (n == 0) p.reset(); p.set_byte(n++, byte); if (n == 4 * p.size()) { n = 0; deliver(p); }` -/
def PacketReader.read (r : PacketReader) (byte : Byte) : Except Fault (PacketReader × List Packet) := do
  let p := if r.count = 0 then r.packet.reset else r.packet
  let p ← p.setByte r.count byte
  if r.count + 1 = 4 * p.size then return (⟨p, 0⟩, [p]) else return (⟨p, r.count + 1⟩, [])

/-- The receiver reads bytes; the packets it delivers. -/
def PacketReader.readAll (r : PacketReader) : List Byte → Except Fault (PacketReader × List Packet)
  | [] => .ok (r, [])
  | b :: bs => do
    let (r, ps) ← r.read b
    let (r, qs) ← r.readAll bs
    return (r, ps ++ qs)

/-- The bytes of a message that lacks at least one byte; or none. -/
def LacksBytes (bs : List Byte) : Prop := ∀ b t, bs = b :: t → bs.length < 4 * wordsOfType (b.toNat / 16)

end Midi.Spec
