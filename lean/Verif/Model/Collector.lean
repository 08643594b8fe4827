import Verif.Model.Sysex

/-!
# Sysex collectors

Models inc/midi/sysex_collector.h and src/sysex_collector.cpp. `feed` returns the new state together with the calls of the
callback, in order. For callbacks that themselves call the collector see
`Verif.Model.Reentrant`.

The capacity of the data vector is part of the state, because the collectors decide by it whether a message is too long:
`reserve(n)` makes the capacity `max capacity n`, `push_back` on a full vector doubles it, and `shrink_to_fit` on an empty
vector makes it 0, as in the common standard libraries.
-/

namespace Midi

/-- `vector::reserve(n)`: the new capacity. -/
def vecReserve (cap n : Nat) : Nat := max cap n

/-- `vector::push_back`: the new capacity, given the size before. -/
def vecPushCap (cap size : Nat) : Nat := if size < cap then cap else max 1 (2 * cap)

/-- `sysex::clear()`: the new capacity (src/sysex.cpp 76-78). -/
def vecClearCap (cap : Nat) : Nat := if cap > 16384 then 0 else cap

/-- The check for sufficient capacity in `sysex7_collector::feed` and `sysex8_collector::feed`
(src/sysex_collector.cpp 72-88 and 191-207): the new capacity, and whether the message is still accepted. -/
def ensureCapacity (cap maxSize size numBytes : Nat) : Nat × Bool :=
  if size + numBytes > cap then
    let limited : Bool := maxSize > 0
    let newCap := max 128 (2 * cap)
    let newCap := if limited then min newCap maxSize else newCap
    let cap := vecReserve cap newCap
    if limited && decide (size + numBytes > cap) then (cap, false) else (cap, true)
  else (cap, true)

/-! ## 7 bit sysex -/

/-- The state of a `sysex7_collector` (inc/midi/sysex_collector.h 53-57); `capacity` is that of `m_sysex7.data`,
`hasCallback` says whether `m_cb` holds a function. -/
structure Collector7 where
  sysex : Sysex := {}
  capacity : Nat := 0
  maxSize : Nat := 0
  state : Byte := 0x10
  idRead : Nat := 0
  hasCallback : Bool := true
deriving DecidableEq, Repr

namespace Collector7

/-- `sysex7_collector::set_max_sysex_data_size(s)` (src/sysex_collector.cpp 35-41). -/
def setMaxSize (c : Collector7) (s : Nat) : Collector7 :=
  let c := { c with maxSize := s }
  if s ≠ 0 then { c with capacity := vecReserve c.capacity s } else c

/-- `sysex7_collector::set_callback(cb)` (inc/midi/sysex_collector.h 92-95); only whether `cb` is empty is modelled. -/
def setCallback (c : Collector7) (has : Bool) : Collector7 := { c with hasCallback := has }

/-- `sysex7_collector::reset()` (src/sysex_collector.cpp 139-144). -/
def reset (c : Collector7) : Collector7 :=
  { c with sysex := c.sysex.clear, capacity := vecClearCap c.capacity, state := 0x10, idRead := 0 }

/-- `m_sysex7.data.push_back(byte)` (src/sysex_collector.cpp 116). -/
def push (c : Collector7) (byte : Byte) : Collector7 :=
  { c with sysex := { c.sysex with data := c.sysex.data ++ [byte] },
           capacity := vecPushCap c.capacity c.sysex.data.length }

/-- The body of the loop over the payload bytes in `sysex7_collector::feed` (src/sysex_collector.cpp 92-118). -/
def collect (c : Collector7) (byte : Byte) : Collector7 :=
  match c.idRead with
  | 0 =>
    if byte ≠ 0 then { c with sysex := { c.sysex with manufacturerID := byte.setWidth 32 <<< 16 }, idRead := 3 }
    else { c with idRead := 1 }
  | 1 => { c with sysex := { c.sysex with manufacturerID := byte.setWidth 32 <<< 8 }, idRead := 2 }
  | 2 => { c with sysex := { c.sysex with manufacturerID := c.sysex.manufacturerID ||| byte.setWidth 32 }, idRead := 3 }
  | _ => c.push byte

/-- The loop over payload bytes `b, b+1, .., b+k-1` (src/sysex_collector.cpp 90-119). -/
def collectLoop (c : Collector7) (p : Packet) (b : Nat) : Nat → Except Fault Collector7
  | 0 => .ok c
  | k + 1 => do
    let byte ← sysex7PayloadByte p b
    (c.collect byte).collectLoop p (b + 1) k

/-- `sysex7_collector::feed` after the first `switch` (src/sysex_collector.cpp 71-135). -/
def feedPayload (c : Collector7) (m : Packet) : Except Fault (Collector7 × List Sysex) := do
  let numBytes := sysex7PayloadSize m
  let (cap, accepted) := ensureCapacity c.capacity c.maxSize c.sysex.data.length numBytes
  let c := { c with capacity := cap }
  if !accepted then
    return ({ c with state := 0x10 }, [])
  else
    let c ← c.collectLoop m 0 numBytes
    if sysex7ViewStatus m = 0x00 ∨ sysex7ViewStatus m = 0x30 then
      return (c.reset, if c.hasCallback then [c.sysex] else [])
    else
      return ({ c with state := 0x20 }, [])

/-- `sysex7_collector::feed(p)` (src/sysex_collector.cpp 45-135). -/
def feed (c : Collector7) (p : Packet) : Except Fault (Collector7 × List Sysex) := do
  if !isSysex7Packet p then
    return (c, [])
  else
    let m ← sysex7View p
    if sysex7ViewStatus m = 0x00 ∨ sysex7ViewStatus m = 0x10 then
      if c.state ≠ 0x10 then c.reset.feedPayload m else c.feedPayload m
    else
      if c.state ≠ 0x20 then return (c.reset, []) else c.feedPayload m

/-- Feeding a sequence of packets, one after the other: the final state and all messages delivered. -/
def feedAll (c : Collector7) : List Packet → Except Fault (Collector7 × List Sysex)
  | [] => .ok (c, [])
  | p :: ps => do
    let (c, out) ← c.feed p
    let (c, out') ← c.feedAll ps
    return (c, out ++ out')

end Collector7

/-! ## 8 bit sysex -/

/-- The state of reading the manufacturer id in a `sysex8_collector` (inc/midi/sysex_collector.h 82). -/
inductive IdState where
  | detect | oneByte | threeBytes | invalid | done
deriving DecidableEq, Repr

/-- The state of a `sysex8_collector` (inc/midi/sysex_collector.h 78-83); `m_state` only ever holds
`packet_format::start` or `packet_format::cont`. -/
structure Collector8 where
  streamId : Byte := 0
  sysex : Sysex := {}
  capacity : Nat := 0
  maxSize : Nat := 0
  state : Format := .start
  idState : IdState := .detect
  hasCallback : Bool := true
deriving DecidableEq, Repr

namespace Collector8

/-- `sysex8_collector::set_max_sysex_data_size(s)` (src/sysex_collector.cpp 148-154). -/
def setMaxSize (c : Collector8) (s : Nat) : Collector8 :=
  let c := { c with maxSize := s }
  if s ≠ 0 then { c with capacity := vecReserve c.capacity s } else c

/-- `sysex8_collector::set_callback(cb)` (inc/midi/sysex_collector.h 103-106); only whether `cb` is empty is modelled. -/
def setCallback (c : Collector8) (has : Bool) : Collector8 := { c with hasCallback := has }

/-- `sysex8_collector::reset()` (src/sysex_collector.cpp 263-269). -/
def reset (c : Collector8) : Collector8 :=
  { c with sysex := c.sysex.clear, capacity := vecClearCap c.capacity, streamId := 0, state := .start,
           idState := .detect }

/-- `m_sysex8.data.push_back(byte)` (src/sysex_collector.cpp 240). -/
def push (c : Collector8) (byte : Byte) : Collector8 :=
  { c with sysex := { c.sysex with data := c.sysex.data ++ [byte] },
           capacity := vecPushCap c.capacity c.sysex.data.length }

/-- The body of the loop over the payload bytes in `sysex8_collector::feed` (src/sysex_collector.cpp 211-242). -/
def collect (c : Collector8) (byte : Byte) : Collector8 :=
  match c.idState with
  | .detect =>
    if byte &&& 0x80 ≠ 0 then
      { c with sysex := { c.sysex with manufacturerID := (byte &&& 0x7F).setWidth 32 <<< 8 }, idState := .threeBytes }
    else
      { c with sysex := { c.sysex with manufacturerID := 0 }, idState := if byte = 0 then .oneByte else .invalid }
  | .oneByte =>
    { c with sysex := { c.sysex with manufacturerID := (byte &&& 0x7F).setWidth 32 <<< 16 }, idState := .done }
  | .threeBytes =>
    { c with sysex := { c.sysex with manufacturerID := c.sysex.manufacturerID ||| (byte &&& 0x7F).setWidth 32 },
             idState := .done }
  | .invalid => { c with idState := .done }
  | .done => c.push byte

/-- The loop over payload bytes `b, b+1, .., b+k-1` (src/sysex_collector.cpp 209-243). -/
def collectLoop (c : Collector8) (p : Packet) (b : Nat) : Nat → Except Fault Collector8
  | 0 => .ok c
  | k + 1 => do
    let byte ← sysex8PayloadByte p b
    (c.collect byte).collectLoop p (b + 1) k

/-- `sysex8_collector::feed` after the first `switch` (src/sysex_collector.cpp 190-259). -/
def feedPayload (c : Collector8) (m : Packet) : Except Fault (Collector8 × List (Sysex × Byte)) := do
  let numBytes := sysex8PayloadSize m
  let (cap, accepted) := ensureCapacity c.capacity c.maxSize c.sysex.data.length numBytes
  let c := { c with capacity := cap }
  if !accepted then
    return ({ c with state := .start }, [])
  else
    let c ← c.collectLoop m 0 numBytes
    if sysex8Format m = .complete ∨ sysex8Format m = .fin then
      return (c.reset, if c.hasCallback then [(c.sysex, c.streamId)] else [])
    else
      return ({ c with state := .cont }, [])

/-- `sysex8_collector::feed(p)` (src/sysex_collector.cpp 158-259). -/
def feed (c : Collector8) (p : Packet) : Except Fault (Collector8 × List (Sysex × Byte)) := do
  if !isSysex8Packet p then
    return (c, [])
  else
    let m ← sysex8View p
    let stream ← sysex8StreamId m
    if sysex8Format m = .complete ∨ sysex8Format m = .start then
      let c := if c.state ≠ .start then c.reset else c
      { c with streamId := stream }.feedPayload m
    else
      if c.state ≠ .cont then return (c.reset, [])
      else if stream ≠ c.streamId then return (c, [])
      else c.feedPayload m

/-- Feeding a sequence of packets, one after the other: the final state and all messages delivered. -/
def feedAll (c : Collector8) : List Packet → Except Fault (Collector8 × List (Sysex × Byte))
  | [] => .ok (c, [])
  | p :: ps => do
    let (c, out) ← c.feed p
    let (c, out') ← c.feedAll ps
    return (c, out ++ out')

end Collector8
end Midi
