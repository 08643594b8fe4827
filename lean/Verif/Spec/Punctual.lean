import Verif.Model.Jitter
import Verif.Model.Messages

/-!
# Specification of jitter reduction from the sending to the receiving device
-/

namespace Midi.Spec.Jr
open Midi.Jr

/-- A jitter reduction message: a clock message, or the timestamp of another message. It is sent when the system clock shows `time`, and
arrives `took` later, in nanoseconds. The difference between the clocks of the two devices counts as part of `took`. -/
structure Shipped where
  isClock : Bool
  time : Int
  took : Int
deriving DecidableEq, Repr

/-- When the message arrives. -/
def Shipped.arrival (m : Shipped) : Int := m.time + m.took

/-- What the sending device does: it reads its clock, which was started at `start`, and sends it in a message. -/
def send (start : Int) (m : Shipped) : Except Fault Packet := do
  let ts ← clockNow start m.time
  if m.isClock then makeClock ts else makeTimestamp ts

/-- What the receiving device does with a packet that arrives at `now`: it looks at it as an utility message, and gives the clock
timestamps and those of messages to its clock follower. The result contains the time scheduled. -/
def receive (f : Follower) (now : Int) (p : Packet) : Except Fault (Follower × List Int) := do
  let v ← utilityView p
  if utilityStatus v = 0x10 then return (← f.processClock now (utilityPayload v), [])
  else if utilityStatus v = 0x20 then
    let (f, time) ← f.scheduleMessage now (utilityPayload v)
    return (f, [time])
  else return (f, [])

/-- All times scheduled for the messages shipped. -/
def deliver (start : Int) (f : Follower) : List Shipped → Except Fault (List Int)
  | [] => .ok []
  | m :: ms => do
    let p ← send start m
    let (f, o) ← receive f m.arrival p
    let os ← deliver start f ms
    return o ++ os

/-- Every message is sent at most two seconds after the last clock message before it, if there is one. -/
def withinTwoSeconds (last : Option Int) : List Shipped → Bool
  | [] => true
  | m :: ms => (match last with | none => true | some c => decide (m.time ≤ c + 2000000000)) &&
      withinTwoSeconds (if m.isClock then some m.time else last) ms

/-- Two devices in normal operation. The clock of the sender was started at `start`, the clock follower was constructed at `zero`, not
longer than 4 years (2^57 ns) ago. Messages arrive in the order they are sent, and clock messages are sent every two seconds at
least. -/
def Normal (start zero : Int) (ms : List Shipped) : Prop :=
  -2 ^ 62 ≤ zero ∧ zero ≤ 2 ^ 62 ∧ ms.Pairwise (fun a b => a.time ≤ b.time ∧ a.arrival ≤ b.arrival) ∧
  withinTwoSeconds none ms = true ∧
  ∀ m ∈ ms, start ≤ m.time ∧ m.time < start + 2 ^ 57 ∧ zero < m.arrival ∧ m.arrival ≤ zero + 2 ^ 57

instance (start zero : Int) (ms : List Shipped) : Decidable (Normal start zero ms) := inferInstanceAs (Decidable (_ ∧ _ ∧ _ ∧ _ ∧ _))

/-- The times clock messages take lie between `least` and `most`. -/
def ClocksTake (least most : Int) (ms : List Shipped) : Prop := ∀ m ∈ ms, m.isClock = true → least ≤ m.took ∧ m.took ≤ most

instance (least most : Int) (ms : List Shipped) : Decidable (ClocksTake least most ms) := by unfold ClocksTake; infer_instance

end Midi.Spec.Jr
