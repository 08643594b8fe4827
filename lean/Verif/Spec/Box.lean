import Verif.Model.Messages
import Verif.Spec.Cable

/-!
# A program between two MIDI 1 cables

The program parses the bytes of one cable, does something with every packet, and sends what results over another cable.
-/

namespace Midi.Spec

/-- What such a program, working in group `g`, may do with packets: for a complete message it sends any number of complete messages,
or none, but for a real time message nothing but real time messages, since these may occur within sysex; and it passes on all
packets of sysex messages or drops them all. -/
structure Box (g : Byte) (f : Packet → List Packet) : Prop where
  short : ∀ p, WellFormed1 [g] p → IsShort p → ∀ q ∈ f p, WellFormed1 [g] q ∧ IsShort q
  realTime : ∀ p, WellFormed1 [g] p → IsRealTimePacket p → ∀ q ∈ f p, IsRealTimePacket q
  sysex : (∀ p, WellFormed1 [g] p → IsSysex7 p → f p = [p]) ∨ (∀ p, WellFormed1 [g] p → IsSysex7 p → f p = [])

/-- From MIDI 1 to MIDI 2: channel voice messages are translated if they have a translation
(`as_midi2_channel_voice_message`), all other packets stay as they are. -/
def intoMidi2 (p : Packet) : Except Fault Packet :=
  if isMidi1CV p then do return (← asMidi2 p).getD p else .ok p

/-- And back (`as_midi1_channel_voice_message`). -/
def outOfMidi2 (p : Packet) : Packet :=
  if isMidi2CV p then (asMidi1 p).getD p else p

/-- What is left of a message after both: everything, but Note On with velocity zero (9n kk 00) has become Note Off with
velocity 64 (8n kk 40). -/
def viaMidi2 (p : Packet) : Packet :=
  if (p.byteAt 0).toNat / 16 = 2 ∧ (p.byteAt 1).toNat / 16 = 9 ∧ p.byteAt 3 = 0 then
    { p with w0 := p.w0 - 0x00100000 + 0x00000040 }
  else p

end Midi.Spec
