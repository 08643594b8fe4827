import Verif.Spec.Said

/-!
# Messages with bytes missing

How much of a MIDI-CI message the receiver has to have to know how long the message is.
-/

namespace Midi.Spec
open CI

/-- The data of the message up to and including its last length or number field. Messages without such fields have the length that
belongs to their kind and version, given by the first four bytes. -/
def Said.lengthsEnd (x : Said) : Nat :=
  match x.content with
  | .endpointReply .. => 15
  | .ack .. | .nak .. => 22
  | .profileInquiryReply enabled _ => 16 + 5 * enabled.length
  | .profileDetailsReply .. => 20
  | .profileSpecificData .. => 21
  | .property _ _ header _ _ _ => 21 + header.length
  | .profileOff _ => 17
  | _ => 4

/-- The message that turns a profile off. -/
def Said.isProfileOff (x : Said) : Bool :=
  match x.content with
  | .profileOff _ => true
  | _ => false

/-- A message that is sent in packets, of which all or some arrive or none. -/
structure Transmission where
  said : Said
  group : Byte
  sent : List Packet
  arrived : List Packet

/-- The packets are those of the message. If only some of them arrive, the first ones, with everything up to the last length field (the
manufacturer id is one byte, and every packet has six), are among them. -/
def Transmission.Ok (t : Transmission) : Prop :=
  t.said.Ok ∧ t.group < 16 ∧ t.said.packets t.group = .ok t.sent ∧
  (t.arrived = t.sent ∨ t.arrived = [] ∨
    ∃ j, t.said.lengthsEnd < 6 * j ∧ t.sent.take j <+: t.arrived ∧ t.arrived.Sublist t.sent)

end Midi.Spec
