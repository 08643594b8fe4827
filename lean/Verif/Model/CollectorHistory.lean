import Verif.Model.Collector

/-!
Histories of calls on the sysex collectors (inc/midi/sysex_collector.h 34-83).
-/

namespace Midi

/-- A call of a member function of `sysex7_collector` or `sysex8_collector` (inc/midi/sysex_collector.h 42-51 and 67-76). -/
inductive CollectorOp where
  | feed (ps : List Packet)
  | setMaxSize (n : Nat)
  | setCallback (has : Bool)
  | reset

/-- Performs calls on a `sysex7_collector` (inc/midi/sysex_collector.h 42-51), one after the other. -/
def Collector7.run (c : Collector7) : List CollectorOp → Except Fault (Collector7 × List Sysex)
  | [] => .ok (c, [])
  | .feed ps :: ops => do
    let (c, out) ← c.feedAll ps
    let (c, out') ← c.run ops
    return (c, out ++ out')
  | .setMaxSize n :: ops => (c.setMaxSize n).run ops
  | .setCallback has :: ops => (c.setCallback has).run ops
  | .reset :: ops => c.reset.run ops

/-- Performs calls on a `sysex8_collector` (inc/midi/sysex_collector.h 67-76), one after the other. -/
def Collector8.run (c : Collector8) : List CollectorOp → Except Fault (Collector8 × List (Sysex × Byte))
  | [] => .ok (c, [])
  | .feed ps :: ops => do
    let (c, out) ← c.feedAll ps
    let (c, out') ← c.run ops
    return (c, out ++ out')
  | .setMaxSize n :: ops => (c.setMaxSize n).run ops
  | .setCallback has :: ops => (c.setCallback has).run ops
  | .reset :: ops => c.reset.run ops

end Midi
