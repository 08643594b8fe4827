import Verif.Model.Packet
import Verif.Model.Types

/-!
# Jitter reduction timestamps

Models inc/midi/jitter_reduction_timestamps.h and src/jitter_reduction_timestamps.cpp. A `jr_timestamp_t` is represented by
its 16 bit `value`. Time points and durations of the system clock are counts of nanoseconds in an `int64_t`, as in the three
major standard libraries; they are represented by an `Int`, and every computation that could leave the range of `int64_t` is
checked (`chk64`).
-/

namespace Midi

namespace Jr

/-- `jr_timestamp_t::operator-`, the number of `jr_ticks` (inc/midi/jitter_reduction_timestamps.h 64-70). The difference
of two 16 bit values fits an `int`. -/
def ticksBetween (value other : U16) : Int :=
  let diff : Int := (value.toNat : Int) - (other.toNat : Int)
  let diff := if diff < 0 then diff + 0x10000 else diff
  ((BitVec.ofInt 16 diff).toNat : Int)

/-- `std::chrono::duration_cast<nanoseconds>(jr_ticks)`: a tick takes 1/31250 s (inc/midi/jitter_reduction_timestamps.h
41, 45). -/
def ticksToNs (ticks : Int) : Int := ticks * 32000

/-- `jr_clock::now()` as a function of the first and the current reading of the system clock
(src/jitter_reduction_timestamps.cpp 33-43). -/
def clockNow (zero now : Int) : Except Fault U16 := do
  let d ← chk64 (now - zero)
  return BitVec.ofInt 16 (d.tdiv 32000)

/-! ## Messages -/

/-- `jr_message::set_timestamp(ts)` (inc/midi/jitter_reduction_timestamps.h 94-98). -/
def setTimestamp (p : Packet) (ts : U16) : Except Fault Packet := do
  let p ← p.setByte 2 ((ts >>> 8).setWidth 8)
  p.setByte 3 ((ts &&& 0xFF).setWidth 8)

/-- `jr_message::timestamp()` (inc/midi/jitter_reduction_timestamps.h 90-93). -/
def timestamp (p : Packet) : Except Fault U16 := do
  let a ← p.getByte 2
  let b ← p.getByte 3
  return (a.setWidth 16 <<< 8) ||| b.setWidth 16

/-- `jr_message::jr_message(status, ts)` (inc/midi/jitter_reduction_timestamps.h 100-110). -/
def makeMessage (status : Byte) (ts : U16) : Except Fault Packet := do
  let p ← Packet.setType {} PacketType.utility
  let p ← p.setByte 1 status
  setTimestamp p ts

/-- `jr_clock_message(ts)` and `jr_clock_message()` with the default (inc/midi/jitter_reduction_timestamps.h 115-125). -/
def makeClock (ts : U16 := 0) : Except Fault Packet := makeMessage 0x10 ts

/-- `jr_timestamp_message(ts)` and `jr_timestamp_message()` with the default
(inc/midi/jitter_reduction_timestamps.h 129-139). -/
def makeTimestamp (ts : U16 := 0) : Except Fault Packet := makeMessage 0x20 ts

/-! ## The clock follower -/

/-- The members of `jr_clock_follower` (inc/midi/jitter_reduction_timestamps.h 170-177). -/
structure Follower where
  zero : Int
  clockTs : U16
  clockTime : Int
  messageTime : Int
  jitter : Int
  securityOffset : Int
deriving DecidableEq, Repr

namespace Follower

/-- A new `jr_clock_follower`, constructed when the system clock shows `zero`
(inc/midi/jitter_reduction_timestamps.h 146, 170-177). -/
def init (zero : Int) : Follower :=
  { zero, clockTs := 0, clockTime := zero, messageTime := zero, jitter := 0, securityOffset := 2000000 }

/-- `reset()` (src/jitter_reduction_timestamps.cpp 47-54). -/
def reset (s : Follower) : Follower :=
  { s with clockTs := 0, clockTime := s.zero, messageTime := s.zero, jitter := 0, securityOffset := 2000000 }

/-- `set_security_offset(offset)` (src/jitter_reduction_timestamps.cpp 58-62). -/
def setSecurityOffset (s : Follower) (offset : Int) : Except Fault Follower := do
  assert (0 ≤ offset)
  return { s with securityOffset := offset }

/-- `recalc_security_offset()` (src/jitter_reduction_timestamps.cpp 147-152). -/
def recalcSecurityOffset (s : Follower) : Except Fault Follower := do
  let value := (← chk64 (s.jitter * 12)).tdiv 10
  return if s.securityOffset < value then { s with securityOffset := value } else s

/-- `update_stats(jitter)` (src/jitter_reduction_timestamps.cpp 131-143). -/
def updateStats (s : Follower) (jitter : Int) : Except Fault Follower := do
  if jitter < 0 then
    recalcSecurityOffset { s with jitter := ← chk64 (s.jitter - jitter) }
  else if s.jitter < jitter then
    recalcSecurityOffset { s with jitter := jitter }
  else return s

/-- `process_clock(received, jr_timestamp)` (src/jitter_reduction_timestamps.cpp 66-102). -/
def processClock (s : Follower) (received : Int) (ts : U16) : Except Fault Follower := do
  if s.clockTime = s.zero then
    return { s with clockTime := received, clockTs := ts, messageTime := received }
  else
    let diffTs := ticksBetween ts s.clockTs
    let s := { s with clockTs := ts }
    let expected ← chk64 (s.clockTime + ticksToNs diffTs)
    let jitter ← chk64 (received - expected)
    if received < expected then
      let s := { s with clockTime := received }
      let s := if s.messageTime < received then { s with messageTime := received } else s
      s.updateStats jitter
    else
      ({ s with clockTime := expected, messageTime := received } : Follower).updateStats jitter

/-- `schedule_message(received, jr_timestamp)` (src/jitter_reduction_timestamps.cpp 106-127): the new state and the returned
time point. -/
def scheduleMessage (s : Follower) (received : Int) (ts : U16) : Except Fault (Follower × Int) := do
  if s.clockTime ≠ s.zero then
    let diffTs := ticksBetween ts s.clockTs
    let time ← chk64 (s.clockTime + ticksToNs diffTs)
    let s := if s.messageTime < time then { s with messageTime := time } else s
    let result ← chk64 (s.messageTime + s.securityOffset)
    return (s, result)
  else
    let s := { s with messageTime := received }
    let result ← chk64 (s.messageTime + s.securityOffset)
    return (s, result)

end Follower

/-- A call to the clock follower. -/
inductive Call where
  | clock (received : Int) (ts : U16)
  | schedule (received : Int) (ts : U16)
  | setOffset (offset : Int)
  | reset
deriving DecidableEq, Repr

/-- The effect of a call, with the time point returned by `schedule_message`. -/
def Follower.call (s : Follower) : Call → Except Fault (Follower × List Int)
  | .clock r ts => do return (← s.processClock r ts, [])
  | .schedule r ts => do
    let (s, t) ← s.scheduleMessage r ts
    return (s, [t])
  | .setOffset o => do return (← s.setSecurityOffset o, [])
  | .reset => return (s.reset, [])

/-- A sequence of calls, with the returned time points in order. -/
def Follower.run (s : Follower) : List Call → Except Fault (Follower × List Int)
  | [] => .ok (s, [])
  | c :: cs => do
    let (s, o) ← s.call c
    let (s, os) ← s.run cs
    return (s, o ++ os)

end Jr

end Midi
