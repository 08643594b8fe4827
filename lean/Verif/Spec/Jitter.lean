import Verif.Model.Jitter

/-!
# Specification vocabulary for the clock follower
-/

namespace Midi.Spec.Jr
open Midi.Jr

/-- The receive time passed to a call. -/
def received : Call → Option Int
  | .clock r _ => some r
  | .schedule r _ => some r
  | _ => none

/-- The receive times of a sequence of calls. -/
def times (calls : List Call) : List Int := calls.filterMap received

/-- The number of clock messages in a sequence of calls. -/
def clocks (calls : List Call) : Nat := calls.countP fun | .clock .. => true | _ => false

/-- A sequence of calls that does not set the security offset. -/
def noOffset (calls : List Call) : Prop := ∀ c ∈ calls, ∀ o, c ≠ .setOffset o

/-- Clock messages that all arrive at the same time, each one with a timestamp 65535 ticks after the previous one. -/
def backwards (n : Nat) : List Call := (List.range n).map fun (k : Nat) => .clock 1 (BitVec.ofInt 16 (-(k : Int)))

/-- A message that a sender with an exact clock sends when it counts `sent` ticks of 32 us, and that is received at time
`received` (in nanoseconds): either a clock message or a message with a timestamp. -/
inductive Event where
  | clock (sent : Nat) (received : Int)
  | message (sent : Nat) (received : Int)
deriving DecidableEq, Repr

namespace Event

/-- The tick at which the message was sent. -/
def sent : Event → Nat
  | clock s _ => s
  | message s _ => s

/-- The time at which the message was received. -/
def received : Event → Int
  | clock _ r => r
  | message _ r => r

/-- Is it a clock message? -/
def isClock : Event → Bool
  | clock .. => true
  | message .. => false

/-- The call the receiver makes: the timestamp consists of the low 16 bits of the tick count. -/
def call : Event → Call
  | clock s r => .clock r (BitVec.ofNat 16 s)
  | message s r => .schedule r (BitVec.ofNat 16 s)

end Event

/-- The last clock message before a given point of the history. -/
def lastClock (last : Option Nat) : List Event → Option Nat
  | [] => last
  | e :: es => lastClock (if e.isClock then some e.sent else last) es

/-- The message is sent less than 2^16 ticks after the clock message, if there is one. -/
def near : Option Nat → Event → Bool
  | none, _ => true
  | some c, e => decide (e.sent < c + 65536)

/-- Every message is sent less than 2^16 ticks after the last clock message before it, if there is one. -/
def closeToClock (last : Option Nat) : List Event → Bool
  | [] => true
  | e :: es => near last e && closeToClock (if e.isClock then some e.sent else last) es

/-- The history of an ideal sender: messages are sent and received in order, after the follower was constructed, and with
clock messages at sufficiently small distances. How long a message takes is arbitrary. -/
def Ideal (zero : Int) (h : List Event) : Prop :=
  h.Pairwise (fun e f => e.sent ≤ f.sent ∧ e.received ≤ f.received) ∧ closeToClock none h = true ∧
    ∀ e ∈ h, zero < e.received

instance (zero : Int) (h : List Event) : Decidable (Ideal zero h) := inferInstanceAs (Decidable (_ ∧ _ ∧ _))

/-- How long the clock messages took, up to a constant. -/
def latencies (h : List Event) : List Int :=
  h.filterMap fun | .clock s r => some (r - 32000 * s) | .message .. => none

/-- The smallest number in the list. -/
def IsMin (m : Int) (l : List Int) : Prop := m ∈ l ∧ ∀ x ∈ l, m ≤ x

/-- The largest number in the list. -/
def IsMax (m : Int) (l : List Int) : Prop := m ∈ l ∧ ∀ x ∈ l, x ≤ m

/-- What is needed to plan messages of an ideal sender: the shortest and the longest time clock messages took, if there were any, and the
time before which nothing is scheduled. -/
structure Plan where
  took : Option (Int × Int)
  floor : Int
deriving DecidableEq, Repr

/-- How much later than planned messages are scheduled: 1.2 times the spread of the times clock messages took, at least 2 ms. -/
def Plan.offset (p : Plan) : Int :=
  match p.took with
  | none => 2000000
  | some (lo, hi) => max 2000000 ((hi - lo) * 12 / 10)

/-- What a message does to the plan, and when it is scheduled if it is not a clock message: as if it had taken as long as the fastest
clock message, but not before the floor. The floor is the time of the last message scheduled, until a clock message arrives that is
not faster than all before: then it is the time that one was received. -/
def Plan.step (p : Plan) : Event → Plan × List Int
  | .clock sent received =>
    match p.took with
    | none => (⟨some (received - 32000 * sent, received - 32000 * sent), received⟩, [])
    | some (lo, hi) => (⟨some (min (received - 32000 * sent) lo, max (received - 32000 * sent) hi),
        if received - 32000 * sent < lo then max p.floor received else received⟩, [])
  | .message sent received =>
    let time := match p.took with
      | none => received
      | some (lo, _) => max p.floor (32000 * sent + lo)
    ({ p with floor := time }, [time + p.offset])

/-- The plan for a history, and all times scheduled. -/
def Plan.run (p : Plan) : List Event → Plan × List Int
  | [] => (p, [])
  | e :: es => (((p.step e).1.run es).1, (p.step e).2 ++ ((p.step e).1.run es).2)

/-- The same call at a time that is `d` later. -/
def delayed (d : Int) : Call → Call
  | .clock r ts => .clock (r + d) ts
  | .schedule r ts => .schedule (r + d) ts
  | c => c

/-- The same call with a timestamp of a sender whose counter is `k` ahead, modulo 2^16. -/
def ahead (k : U16) : Call → Call
  | .clock r ts => .clock r (ts + k)
  | .schedule r ts => .schedule r (ts + k)
  | c => c

/-- What a user sees of a sequence of calls: the jitter, the security offset and the times messages are scheduled. -/
def visible (x : Except Fault (Follower × List Int)) : Except Fault (Int × Int × List Int) :=
  x.map fun p => (p.1.jitter, p.1.securityOffset, p.2)

/-- The calls are the same, but messages with timestamps may be received at other times. Clock messages are received at the same
times, and there is no reset. -/
inductive OtherReceiveTimes : List Call → List Call → Prop
  | nil : OtherReceiveTimes [] []
  | message (r r' : Int) (ts : U16) {a b : List Call} : OtherReceiveTimes a b →
      OtherReceiveTimes (.schedule r ts :: a) (.schedule r' ts :: b)
  | clock (r : Int) (ts : U16) {a b : List Call} : OtherReceiveTimes a b → OtherReceiveTimes (.clock r ts :: a) (.clock r ts :: b)
  | offset (o : Int) {a b : List Call} : OtherReceiveTimes a b → OtherReceiveTimes (.setOffset o :: a) (.setOffset o :: b)

/-- A history (times in ns) whose first clock message takes 100 ms, and the following ones 99 ms. -/
def faster : List Event :=
  [.clock 0 100000000, .message 31250 1099000000, .clock 31250 1099000000, .clock 31260 1099320000,
    .message 31260 1099320000]

/-- A history whose first clock message takes 100 ms, and the second one 105 ms. -/
def slower : List Event :=
  [.clock 0 100000000, .clock 3125 205000000, .message 3125 205000000, .message 3156 206000000]

/-- A history with clock messages that take between 100 ms and 103 ms. -/
def steady : List Event :=
  [.clock 0 100000000, .message 100 103300000, .clock 3125 203000000, .message 3200 204000000, .clock 6250 301000000,
    .message 6250 301000000, .message 6300 302000000]

end Midi.Spec.Jr
