import Verif.Model.Senders
import Verif.Model.Collector

/-!
# Specification: calling a callback for each packet
-/

namespace Midi.Spec

variable {m : Type → Type} [Monad m]

/-- What is expected: the callback is called for each packet, one after the other; nothing else happens. -/
def forEach (sender : Packet → m Unit) : List Packet → m Unit
  | [] => pure ()
  | p :: ps => do sender p; forEach sender ps

/-- A callback that keeps the packets it gets, and throws for some of them. -/
def recorder (throws : Packet → Bool) (p : Packet) : ExceptT Unit (StateM (List Packet)) Unit := do
  modify (· ++ [p])
  if throws p then throw () else pure ()

/-- The packets up to and including the first one with a certain property. -/
def upTo (f : Packet → Bool) : List Packet → List Packet
  | [] => []
  | p :: ps => if f p then [p] else p :: upTo f ps

/-- A callback that feeds a collector and keeps the messages it delivers. -/
def collecting (p : Packet) : StateT (Collector7 × List Sysex) (Except Fault) Unit := fun (c, out) =>
  (c.feed p).map fun r => ((), r.1, out ++ r.2)

end Midi.Spec
