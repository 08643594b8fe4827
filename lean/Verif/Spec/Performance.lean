import Verif.Spec.Endpoint
import Verif.Spec.Sounding

/-!
# An endpoint that plays

An endpoint (Spec/Endpoint.lean) which also plays: it sends every channel voice message in the protocol which is in use at that moment,
translated by the library where needed.
-/

namespace Midi.Spec

/-- What the endpoint sends when it plays a packet. -/
def Endpoint.play (e : Endpoint) (p : Packet) : Except Fault (List Packet) := if e.protocol = 1 then downgrade p else upgrade p

/-- What happens to the endpoint: something is to be played, or a packet arrives from one of its clients. -/
inductive Moment where
  | play (p : Packet)
  | receive (p : Packet)

/-- What the endpoint does at one moment: what it is afterwards, and what it sends. -/
def Endpoint.moment (e : Endpoint) : Moment → Except Fault (Endpoint × List Packet)
  | .play p => do return (e, ← e.play p)
  | .receive p => e.receive p

/-- What the endpoint does, moment by moment. -/
def Endpoint.perform (e : Endpoint) : List Moment → Except Fault (Endpoint × List Packet)
  | [] => .ok (e, [])
  | m :: ms => do
    let (e, ps) ← e.moment m
    let (e, qs) ← e.perform ms
    return (e, ps ++ qs)

/-- What is to be played. -/
def music : List Moment → List Packet
  | [] => []
  | .play p :: ms => p :: music ms
  | .receive _ :: ms => music ms

/-- What is played are no stream messages, and MIDI 1 channel voice messages have 7 bit data. -/
def Playable (ms : List Moment) : Prop := ∀ p ∈ music ms, p.type ≠ 15 ∧ (p.type = 2 → p.byte3 < 128 ∧ p.byte4 < 128)

instance (ms : List Moment) : Decidable (Playable ms) := inferInstanceAs (Decidable (∀ p ∈ music ms, _))

/-- The protocol of a channel voice message, 1 or 2; none for other packets. -/
def protocolOf (p : Packet) : Option Byte := if p.type = 2 then some 1 else if p.type = 4 then some 2 else none

end Midi.Spec
