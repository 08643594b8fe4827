import Verif.Spec.Collector

/-!
# Reference machine for a collector with size limit

In contrast to the decoders in `Verif.Spec.Collector` this is not what a user would want, but what there is: it says exactly
which messages a collector with size limit delivers.
-/

namespace Midi.Spec

/-- The payloads of the messages delivered with a limit of `n` data bytes. `running` says whether a start packet was accepted
and the end packet is still to come; `held` is the payload collected since, or left over from a dropped message. A packet is
accepted if its whole payload fits in addition to the data (without manufacturer id) of what is held. If it is not, the
message is dropped, but what is held stays, until a continue or end packet arrives; so it is taken for the begin of the next
message if that follows directly. -/
def limited (n : Nat) (running : Bool) (held : List Byte) : List (Nat × List Byte) → List (List Byte)
  | [] => []
  | (f, d) :: r =>
    if f ≥ 2 ∧ running = false then limited n false [] r
    else
      let h := if f ≤ 1 ∧ running = true then [] else held
      if (message7 h).data.length + d.length ≤ n then
        if f = 0 ∨ f = 3 then (h ++ d) :: limited n false [] r else limited n true (h ++ d) r
      else limited n false h r

/-- The same for 8 bit sysex, with stream ids: continue and end packets of another stream than the running one are
ignored. -/
def limited8 (n : Nat) (running : Bool) (stream : Byte) (held : List Byte) : List Item8 → List (List Byte × Byte)
  | [] => []
  | (f, s, d) :: r =>
    if f ≥ 2 ∧ running = false then limited8 n false 0 [] r
    else if f ≥ 2 ∧ s ≠ stream then limited8 n running stream held r
    else
      let h := if f ≤ 1 ∧ running = true then [] else held
      if (message8 h).data.length + d.length ≤ n then
        if f = 0 ∨ f = 3 then (h ++ d, s) :: limited8 n false 0 [] r else limited8 n true s (h ++ d) r
      else limited8 n false s h r

end Midi.Spec
