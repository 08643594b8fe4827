import Verif.Model.Packet

/-!
# A patch bay

A program which moves packets from group to group.
-/

namespace Midi.Spec

/-- What the program does with a packet: `if (p.type() != packet_type::utility && p.type() != packet_type::stream)
p.set_group(f(p.group()))`. Utility and stream messages do not belong to a group. -/
def patch (f : Byte → Byte) (p : Packet) : Except Fault Packet :=
  if p.type = PacketType.utility ∨ p.type = PacketType.stream then .ok p else p.setGroup (f p.group)

/-- What it does with a stream of packets. -/
def patchAll (f : Byte → Byte) (ps : List Packet) : Except Fault (List Packet) := ps.mapM (patch f)

end Midi.Spec
