import Verif.Model.Collector
import Verif.Model.Senders
import Verif.Spec.ByteStream

/-!
# What arrives over a transport that damages some messages (C80)
-/

namespace Midi.Spec

/-- A part of the traffic a sysex7 collector receives: all packets of a message, as they were sent to a group, or any packets whatsoever,
such as what remains of a message if packets are lost, repeated, swapped or changed. -/
inductive Traffic7 where
  | intact (m : Sysex) (group : Byte)
  | damaged (ps : List Packet)

/-- The packets of a part of the traffic. -/
def Traffic7.packets : Traffic7 → Except Fault (List Packet)
  | .intact m g => sendSysex7 m g
  | .damaged ps => .ok ps

/-- What a part of the traffic may deliver: exactly the message if it is intact, at most one message for each complete or end packet
otherwise. -/
def Traffic7.delivers : Traffic7 → List Sysex → Prop
  | .intact m _, out => out = [m]
  | .damaged ps, out => out.length ≤ ps.countP fun p => decide (IsSysex7 p ∧ (formatCode p = 0 ∨ formatCode p = 3))

/-- A part of the traffic a sysex8 collector receives: all packets of a message, as they were sent in a stream to a group, or any packets
whatsoever. -/
inductive Traffic8 where
  | intact (m : Sysex) (stream group : Byte)
  | damaged (ps : List Packet)

/-- The packets of a part of the traffic. -/
def Traffic8.packets : Traffic8 → Except Fault (List Packet)
  | .intact m s g => sendSysex8 m s g
  | .damaged ps => .ok ps

/-- What a part of the traffic may deliver. -/
def Traffic8.delivers : Traffic8 → List (Sysex × Byte) → Prop
  | .intact m s _, out => out = [(m, s)]
  | .damaged ps, out => out.length ≤ ps.countP fun p => decide (IsSysex8 p ∧ (formatCode p = 0 ∨ formatCode p = 3))

/-- A part of a byte stream: the bytes of a system or channel voice message beginning with its status byte, given by the packet,
a sysex message from F0 to F7, given by its payload, or any bytes whatsoever. -/
inductive TrafficBytes where
  | intact (p : Packet)
  | sysex (m : Sysex)
  | damaged (bs : List Byte)

/-- The bytes of a part of a byte stream. -/
def TrafficBytes.bytes : TrafficBytes → List Byte
  | .intact p => streamBytes p
  | .sysex m => 0xF0 :: (idBytes7 m.manufacturerID ++ m.data ++ [0xF7])
  | .damaged bs => bs

/-- What a part of a byte stream may cause: exactly the packet, or the sysex message (as a message if there is a callback for them, in
well framed packets otherwise) if it is intact, and at most one callback for each byte otherwise. -/
def TrafficBytes.delivers (sysexCallback : Bool) : TrafficBytes → List Event → Prop
  | .intact p, es => es = [.packet p]
  | .sysex m, es => if sysexCallback then es = [.sysex m] else ∃ ps : List Packet, es = ps.map .packet ∧ (∀ q ∈ ps, IsSysex7 q) ∧
      Framed (ps.map formatCode) ∧ ps.flatMap payload7 = idBytes7 m.manufacturerID ++ m.data
  | .damaged bs, es => es.length ≤ bs.length

end Midi.Spec
