import Verif.Spec.Sounding
import Verif.Spec.Translation

/-!
# What an instrument is set to

An instrument which remembers the controllers, pressures, pitch bend and program of every channel, with the predicates and getters of the
library, and how much of a value remains in MIDI 1.
-/

namespace Midi.Spec

/-- What can be set in a channel. -/
inductive Knob where
  | controller (nr : Nat)
  | pressureOf (note : Nat)
  | program
  | pressure
  | bend
  deriving DecidableEq

/-- What an instrument is set to: for every group, channel and knob. -/
abbrev Panel := Nat → Nat → Knob → Nat

/-- One knob is turned. -/
def Panel.turn (s : Panel) (group channel : Nat) (knob : Knob) (value : Nat) : Panel :=
  fun g c k => if g = group ∧ c = channel ∧ k = knob then value else s g c k

/-- The instrument receives a packet, of any kind. -/
def Panel.receive (s : Panel) (p : Packet) : Except Fault Panel := do
  if isPolyPressure p then return s.turn p.group.toNat (← p.channel).toNat (.pressureOf (noteNr p).toNat) (controllerValue p).toNat
  else if isControlChange p then
    return s.turn p.group.toNat (← p.channel).toNat (.controller (controllerNr p).toNat) (controllerValue p).toNat
  else if isProgramChange p then return s.turn p.group.toNat (← p.channel).toNat .program (programValue p).toNat
  else if isChannelPressure p then return s.turn p.group.toNat (← p.channel).toNat .pressure (channelPressureValue p).toNat
  else if isPitchBend p then return s.turn p.group.toNat (← p.channel).toNat .bend (← pitchBendValue p).toNat
  else return s

/-- What the instrument is set to after some packets. -/
def panelAfter : Panel → List Packet → Except Fault Panel
  | s, [] => .ok s
  | s, p :: ps => do panelAfter (← s.receive p) ps

/-- What remains in MIDI 1 of a value: 7 bits, for pitch bend 14 bits, for a program everything. -/
def Knob.coarse (k : Knob) (value : Nat) : Nat :=
  match k with
  | .program => value
  | .bend => up14to32 (value / 2 ^ 18)
  | _ => up7to32 (value / 2 ^ 25)

/-- Every value as it remains in MIDI 1. -/
def Panel.coarse (s : Panel) : Panel := fun g c k => k.coarse (s g c k)

/-- A controller that has a counterpart in the other protocol, or another knob. -/
def Knob.kept : Knob → Bool
  | .controller nr => !sequenceControllers.contains nr
  | _ => true

/-- A control change, in the protocol with packet type `t`, of a controller that is part of a sequence of messages. -/
def sequenceControl (t : Byte) (p : Packet) : Bool :=
  p.type == t && p.status.toNat / 16 == 11 && sequenceControllers.contains (p.byte3.toNat % 128)

/-- A MIDI 2 program change with bank. -/
def programWithBank (p : Packet) : Bool :=
  p.type == 4 && p.status.toNat / 16 == 12 && p.byte4.toNat % 2 == 1

end Midi.Spec
