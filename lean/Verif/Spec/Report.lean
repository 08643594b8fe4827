import Verif.Spec.Panel
import Verif.Model.Collector
import Verif.Model.CapabilityInquiry
import Verif.Spec.Sysex

/-!
# Specification: a device reports what it is set to (C112)

A device that is asked for a MIDI message report sends a reply, then its settings as channel voice messages, and an end message. It may be played
meanwhile, and then its changes are sent too.
-/

namespace Midi.Spec
open CI

/-- The protocol the device uses. -/
inductive Protocol where
  | midi1 | midi2
  deriving DecidableEq

/-- The message that turns a knob, made by the factory functions. -/
def knobMessage (pr : Protocol) (group channel : Byte) (k : Knob) (value : Nat) : Packet :=
  let v := BitVec.ofNat 32 value
  match pr, k with
  | .midi1, .controller nr => makeMidi1ControlChange group channel (BitVec.ofNat 8 nr) v
  | .midi1, .pressureOf note => makeMidi1PolyPressure group channel (BitVec.ofNat 8 note) v
  | .midi1, .program => makeMidi1ProgramChange group channel (BitVec.ofNat 8 value)
  | .midi1, .pressure => makeMidi1ChannelPressure group channel v
  | .midi1, .bend => makeMidi1PitchBend group channel v
  | .midi2, .controller nr => makeMidi2ControlChange group channel (BitVec.ofNat 8 nr) v
  | .midi2, .pressureOf note => makeMidi2PolyPressure group channel (BitVec.ofNat 8 note) v
  | .midi2, .program => makeMidi2ProgramChange group channel (BitVec.ofNat 8 value)
  | .midi2, .pressure => makeMidi2ChannelPressure group channel v
  | .midi2, .bend => makeMidi2PitchBend group channel v

/-- What the other side learns of a value. -/
def Protocol.learned : Protocol → Knob → Nat → Nat
  | .midi1, k, v => k.coarse v
  | .midi2, _, v => v

/-- Knobs and values that exist. -/
def Knob.Ok (k : Knob) (value : Nat) : Prop :=
  match k with
  | .controller nr => nr < 128 ∧ value < 2 ^ 32
  | .pressureOf note => note < 128 ∧ value < 2 ^ 32
  | .program => value < 128
  | _ => value < 2 ^ 32

instance decideKnobOk (k : Knob) (v : Nat) : Decidable (k.Ok v) := by unfold Knob.Ok; split <;> infer_instance

/-- What the device does. -/
inductive Deed where
  /-- A knob is turned, and the device sends that. -/
  | turn (channel : Byte) (k : Knob) (value : Nat)
  /-- The device reports what a knob is set to. -/
  | tell (channel : Byte) (k : Knob)
  /-- It sends something else. -/
  | other (p : Packet)

/-- What the device is set to afterwards, and what it sends. -/
def Deed.perform (pr : Protocol) (group : Byte) (s : Panel) : Deed → Panel × Packet
  | .turn c k v => (s.turn group.toNat c.toNat k v, knobMessage pr group c k v)
  | .tell c k => (s, knobMessage pr group c k (s group.toNat c.toNat k))
  | .other p => (s, p)

/-- One after the other. -/
def performAll (pr : Protocol) (group : Byte) : Panel → List Deed → Panel × List Packet
  | s, [] => (s, [])
  | s, d :: ds =>
    let (s, p) := d.perform pr group s
    let (s, ps) := performAll pr group s ds
    (s, p :: ps)

/-- Channels, knobs and values exist; the other packets are no sysex7 packets, and turn no knob. -/
def Deed.Ok (s : Panel) (group : Byte) : Deed → Prop
  | .turn c k v => c < 16 ∧ k.Ok v
  | .tell c k => c < 16 ∧ k.Ok (s group.toNat c.toNat k)
  | .other p => ¬ IsSysex7 p ∧ ¬ (isPolyPressure p || isControlChange p || isProgramChange p || isChannelPressure p || isPitchBend p) = true

/-- All deeds, each in the state it finds. -/
def AllOk (group : Byte) : Panel → List Deed → Prop
  | _, [] => True
  | s, d :: ds => d.Ok s group ∧ AllOk group (match d with | .turn c k v => s.turn group.toNat c.toNat k v | _ => s) ds

/-- The knob was turned or reported. -/
def Shown (ds : List Deed) (channel : Nat) (k : Knob) : Prop :=
  ∃ d ∈ ds, match d with
    | .turn c k' _ => c.toNat = channel ∧ k' = k
    | .tell c k' => c.toNat = channel ∧ k' = k
    | .other _ => False

/-- How far a report is. -/
inductive Phase where
  | waiting | running | finished
  deriving DecidableEq

/-- The one who asked: a collector, how far the report is, and the settings known. -/
structure Listener where
  collector : Collector7
  phase : Phase
  panel : Panel

/-- It looks at a message from the collector: is it the reply of the device, or the end message? There is no view for the end message. -/
def Phase.next (device : Word) (ph : Phase) (m : Sysex) : Except Fault Phase := do
  if ← CI.View.validate m then
    if (← CI.View.sourceMuid m) = device then
      if ← MidiMessageReportReplyView.validate m then return .running
      else if (← UniversalSysex.View.subtype m) = 0x44 && decide (ph = .running) then return .finished
      else return ph
    else return ph
  else return ph

/-- It receives a packet. -/
def Listener.receive (device : Word) (l : Listener) (p : Packet) : Except Fault Listener := do
  let (c, ms) ← l.collector.feed p
  let ph ← ms.foldlM (Phase.next device) l.phase
  let s ← if ph = .running then l.panel.receive p else .ok l.panel
  return ⟨c, ph, s⟩

/-- It receives some packets. -/
def Listener.hear (device : Word) (l : Listener) (ps : List Packet) : Except Fault Listener := ps.foldlM (Listener.receive device) l

end Midi.Spec
