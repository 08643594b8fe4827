import Verif.Spec.Jitter

/-!
# Specification: senders whose clock runs at another rate
-/

namespace Midi.Spec.Jr

/-- Clock messages sent whenever the sender has counted another `k` ticks and received every `r` nanoseconds, the first one at `start`,
each one late by the number in the list. The clocks run at the same rate if `r = 32000 * k`. -/
def drifting (start r : Int) (k : Nat) (late : List Int) : List Event :=
  late.zipIdx.map fun x => .clock (x.2 * k) (start + x.2 * r + x.1)

/-- The same for `n + 1` clock messages none of which is late. -/
def drifts (start r : Int) (k n : Nat) : List Event := (List.range (n + 1)).map fun i => .clock (i * k) (start + i * r)

/-- By how much `n` periods of `k` ticks of the sender differ from the time between the clock messages they are received with. -/
def drift (r : Int) (k n : Nat) : Int := n * (r - 32000 * k)

end Midi.Spec.Jr
