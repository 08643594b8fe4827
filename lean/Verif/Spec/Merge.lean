import Verif.Model.ByteStream
import Verif.Model.Sysex
import Verif.Spec.ByteStream

/-!
# A program with several MIDI 1 cables

Bytes arrive on several cables, in any order. The program has a parser for each of them.
-/

namespace Midi.Spec

/-- What belongs to cable `i`, in order. -/
def onCable {α : Type} (i : Nat) (t : List (Nat × α)) : List α := (t.filter fun x => x.1 = i).map Prod.snd

/-- The program feeds each byte, when it arrives, into the parser of its cable. What the parsers report, in the order in which they do,
with the number of the cable. -/
def listenAll (ps : Nat → Parser) : List (Nat × Byte) → Except Fault ((Nat → Parser) × List (Nat × Event))
  | [] => .ok (ps, [])
  | (i, b) :: t => do
    let (p, es) ← (ps i).feed b
    let (ps, fs) ← listenAll (fun k => if k = i then p else ps k) t
    return (ps, es.map (fun e => (i, e)) ++ fs)

/-- The bytes a program sends to pass on what a parser reports: `to_midi1_byte_stream` for a packet; for a sysex message
`send_sysex7` with group `g` and `to_midi1_byte_stream` for each of its packets. -/
def passOn (g : Byte) : Event → Except Fault (List Byte)
  | .packet p => toMidi1ByteStream p
  | .sysex m => do
    let ps ← sendSysex7 m g
    let bss ← ps.mapM toMidi1ByteStream
    return bss.flatten

end Midi.Spec
