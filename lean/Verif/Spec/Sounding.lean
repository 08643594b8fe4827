import Verif.Model.Messages

/-!
# The notes that sound

An instrument which remembers the notes that sound, with the predicates and getters of the library, and two programs which translate all
channel voice messages of a stream of packets from one protocol to the other and pass on everything else.
-/

namespace Midi.Spec

/-- The notes that sound: for every group, channel and note number. -/
abbrev Sounding := Byte → Byte → Byte → Bool

/-- One note begins or ends. -/
def Sounding.set (s : Sounding) (group channel note : Byte) (on : Bool) : Sounding :=
  fun g c n => if g = group ∧ c = channel ∧ n = note then on else s g c n

/-- The instrument receives a packet, of any kind. -/
def Sounding.receive (s : Sounding) (p : Packet) : Except Fault Sounding := do
  if isNoteOn p then return s.set p.group (← p.channel) (noteNr p) true
  else if isNoteOff p then return s.set p.group (← p.channel) (noteNr p) false
  else return s

/-- The notes that sound after some packets. -/
def soundingAfter : Sounding → List Packet → Except Fault Sounding
  | s, [] => .ok s
  | s, p :: ps => do soundingAfter (← s.receive p) ps

/-- A program translates MIDI 1 channel voice messages to MIDI 2, and passes on everything else. -/
def upgrade (p : Packet) : Except Fault (List Packet) := do
  match ← asMidi1View p with
  | some v => return (← asMidi2 v).toList
  | none => return [p]

/-- A program translates MIDI 2 channel voice messages to MIDI 1, and passes on everything else. -/
def downgrade (p : Packet) : Except Fault (List Packet) := do
  match ← asMidi2View p with
  | some v => return (asMidi1 v).toList
  | none => return [p]

/-- The translation of a stream of packets. -/
def translated (f : Packet → Except Fault (List Packet)) (ps : List Packet) : Except Fault (List Packet) :=
  (ps.mapM f).map List.flatten

/-- A MIDI 2 note message with an attribute: its last index byte is not zero (in its lower seven bits). -/
def hasAttribute (p : Packet) : Bool :=
  p.type == 4 && (p.status.toNat / 16 == 8 || p.status.toNat / 16 == 9) && p.byte4.toNat % 128 != 0

end Midi.Spec
