import Verif.Spec.ByteStream
import Verif.Model.Collector

/-!
# MIDI 1 traffic

What a sequence of MIDI 1 packets means: short messages one by one, sysex messages once their last packet has arrived.
-/

namespace Midi.Spec

/-- A system real time message. -/
def IsRealTimePacket (q : Packet) : Prop := IsShort q ∧ q.byteAt 1 ≥ 0xF8

instance (q : Packet) : Decidable (IsRealTimePacket q) := inferInstanceAs (Decidable (_ ∧ _))

/-- One thing to receive: a packet that is not sysex, or a whole sysex message with this payload. -/
inductive Item where
  | short (q : Packet)
  | sysex (payload : List Byte)
deriving DecidableEq, Repr

/-- The things to receive from a packet sequence, in order. `held` is the payload so far of the sysex message in progress.
A complete or start packet begins a new message; complete and end packets finish one. A packet that is neither sysex nor real
time abandons the sysex message in progress. -/
def itemsOf (held : List Byte) : List Packet → List Item
  | [] => []
  | q :: qs =>
    if IsSysex7 q then
      if formatCode q = 0 ∨ formatCode q = 3 then
        .sysex ((if formatCode q ≤ 1 then [] else held) ++ payload7 q) :: itemsOf [] qs
      else itemsOf ((if formatCode q ≤ 1 then [] else held) ++ payload7 q) qs
    else .short q :: itemsOf (if IsRealTimePacket q then held else []) qs

/-- Every continue or end packet continues a message that has been started and not been abandoned. `running` tells whether
there is a message to continue. -/
def NoOrphans (running : Bool) : List Packet → Prop
  | [] => True
  | q :: qs =>
    if IsSysex7 q then (2 ≤ formatCode q → running = true) ∧ NoOrphans (decide (formatCode q = 1 ∨ formatCode q = 2)) qs
    else NoOrphans (running && decide (IsRealTimePacket q)) qs

instance decidableNoOrphans : ∀ (r : Bool) (qs : List Packet), Decidable (NoOrphans r qs)
  | _, [] => inferInstanceAs (Decidable True)
  | r, q :: qs =>
    have := decidableNoOrphans (decide (formatCode q = 1 ∨ formatCode q = 2)) qs
    have := decidableNoOrphans (r && decide (IsRealTimePacket q)) qs
    by unfold NoOrphans; infer_instance

/-- Sysex messages are sent as a whole: in between the packets of a message there are only real time messages. -/
def Uninterrupted (running : Bool) : List Packet → Prop
  | [] => True
  | q :: qs =>
    if IsSysex7 q then (2 ≤ formatCode q ↔ running = true) ∧ Uninterrupted (decide (formatCode q = 1 ∨ formatCode q = 2)) qs
    else (running = true → IsRealTimePacket q) ∧ Uninterrupted running qs

instance decidableUninterrupted : ∀ (r : Bool) (qs : List Packet), Decidable (Uninterrupted r qs)
  | _, [] => inferInstanceAs (Decidable True)
  | r, q :: qs =>
    have := decidableUninterrupted (decide (formatCode q = 1 ∨ formatCode q = 2)) qs
    have := decidableUninterrupted r qs
    by unfold Uninterrupted; infer_instance

/-- What a receiver reports for an item. -/
def Item.event : Item → Event
  | .short q => .packet q
  | .sysex d => .sysex (message7 d)

/-- Short messages, and sysex messages with a complete manufacturer id. -/
def Item.hasId : Item → Bool
  | .short _ => true
  | .sysex d => decide (HasId d)

/-- Short messages, and sysex messages with at least one byte. -/
def Item.nonEmpty : Item → Bool
  | .short _ => true
  | .sysex d => decide (d ≠ [])

/-- An application that receives packets: it handles a sysex7 packet by feeding it into its collector, which delivers sysex
messages, and any other packet at once. What it gets to see, in order. -/
def receive (c : Collector7) : List Packet → Except Fault (List Event)
  | [] => pure []
  | q :: qs => do
    let (c', ms) ← c.feed q
    let es ← receive c' qs
    pure ((if isSysex7Packet q then [] else [Event.packet q]) ++ ms.map Event.sysex ++ es)

end Midi.Spec
