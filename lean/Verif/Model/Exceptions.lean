import Verif.Model.ByteStream
import Verif.Model.CollectorHistory

/-!
# Exceptions

The models in `Verif.Model.Collector` and `Verif.Model.ByteStream` are those of callbacks that return and of allocations that
succeed. Here the same functions are modelled for callbacks that throw an exception and for allocations that fail, which throws
`std::bad_alloc` or `std::length_error`. The functions of the library catch nothing; so an exception leaves the call of the
library with the object in the state of this moment.

Every call carries what goes wrong during this call. The result tells whether an exception left the call. Events are those
callbacks that were entered, whether they threw or not. An empty packet callback of the parser throws
`std::bad_function_call` whenever it is called; this is a callback that always throws.

`shrink_to_fit` is taken not to throw: it is only called for empty vectors.
-/

namespace Midi

/-- What goes wrong during a call, if it comes to that: the callback throws, or an allocation fails. -/
structure Trouble where
  callback : Bool := false
  memory : Bool := false
deriving DecidableEq, Repr

/-- Does `vector::reserve(n)` allocate: it does if the capacity is smaller. -/
def vecReserveAllocates (cap n : Nat) : Bool := cap < n

/-- Does `vector::push_back` allocate. -/
def vecPushAllocates (cap size : Nat) : Bool := !decide (size < cap)

/-- Does the check for sufficient capacity in `sysex7_collector::feed` and `sysex8_collector::feed` allocate
(src/sysex_collector.cpp 72-80 and 191-199). -/
def ensureAllocates (cap maxSize size numBytes : Nat) : Bool :=
  if size + numBytes > cap then
    let newCap := max 128 (2 * cap)
    let newCap := if maxSize > 0 then min newCap maxSize else newCap
    vecReserveAllocates cap newCap
  else false

/-- A call of a member function of `sysex7_collector` or `sysex8_collector` (inc/midi/sysex_collector.h 42-51 and 67-76), and
what goes wrong during it. -/
inductive CollectorTry where
  | feed (p : Packet) (t : Trouble)
  | setMaxSize (n : Nat) (memory : Bool)
  | setCallback (has : Bool)
  | reset
deriving DecidableEq, Repr

namespace Collector7

/-- `sysex7_collector::set_max_sysex_data_size(s)` (src/sysex_collector.cpp 35-41); `memory` tells whether an allocation
fails. -/
def trySetMaxSize (c : Collector7) (s : Nat) (memory : Bool) : Collector7 × Bool :=
  let c := { c with maxSize := s }
  if s ≠ 0 then
    if memory && vecReserveAllocates c.capacity s then (c, true)
    else ({ c with capacity := vecReserve c.capacity s }, false)
  else (c, false)

/-- The loop over payload bytes `b, b+1, .., b+k-1` (src/sysex_collector.cpp 90-119); only `push_back` (116) allocates. -/
def tryCollectLoop (c : Collector7) (p : Packet) (memory : Bool) (b : Nat) : Nat → Except Fault (Collector7 × Bool)
  | 0 => .ok (c, false)
  | k + 1 => do
    let byte ← sysex7PayloadByte p b
    if memory && decide (c.idRead ≥ 3) && vecPushAllocates c.capacity c.sysex.data.length then return (c, true)
    else (c.collect byte).tryCollectLoop p memory (b + 1) k

/-- `sysex7_collector::feed` after the first `switch` (src/sysex_collector.cpp 71-135). -/
def tryFeedPayload (c : Collector7) (m : Packet) (t : Trouble) : Except Fault (Collector7 × List Sysex × Bool) := do
  let numBytes := sysex7PayloadSize m
  if t.memory && ensureAllocates c.capacity c.maxSize c.sysex.data.length numBytes then
    return (c, [], true)
  else
    let (cap, accepted) := ensureCapacity c.capacity c.maxSize c.sysex.data.length numBytes
    let c := { c with capacity := cap }
    if !accepted then
      return ({ c with state := 0x10 }, [], false)
    else
      let (c, threw) ← c.tryCollectLoop m t.memory 0 numBytes
      if threw then
        return (c, [], true)
      else if sysex7ViewStatus m = 0x00 ∨ sysex7ViewStatus m = 0x30 then
        if c.hasCallback then
          if t.callback then return (c, [c.sysex], true) else return (c.reset, [c.sysex], false)
        else return (c.reset, [], false)
      else
        return ({ c with state := 0x20 }, [], false)

/-- `sysex7_collector::feed(p)` (src/sysex_collector.cpp 45-135). -/
def tryFeed (c : Collector7) (p : Packet) (t : Trouble) : Except Fault (Collector7 × List Sysex × Bool) := do
  if !isSysex7Packet p then
    return (c, [], false)
  else
    let m ← sysex7View p
    if sysex7ViewStatus m = 0x00 ∨ sysex7ViewStatus m = 0x10 then
      if c.state ≠ 0x10 then c.reset.tryFeedPayload m t else c.tryFeedPayload m t
    else
      if c.state ≠ 0x20 then return (c.reset, [], false) else c.tryFeedPayload m t

/-- One call (inc/midi/sysex_collector.h 42-51). -/
def tryOne (c : Collector7) : CollectorTry → Except Fault (Collector7 × List Sysex × Bool)
  | .feed p t => c.tryFeed p t
  | .setMaxSize n memory => .ok ((c.trySetMaxSize n memory).1, [], (c.trySetMaxSize n memory).2)
  | .setCallback has => .ok (c.setCallback has, [], false)
  | .reset => .ok (c.reset, [], false)

/-- A sequence of calls by a caller that catches the exceptions and carries on (inc/midi/sysex_collector.h 42-51): the final
state and all messages delivered. -/
def tryAll (c : Collector7) : List CollectorTry → Except Fault (Collector7 × List Sysex)
  | [] => .ok (c, [])
  | o :: os => do
    let (c, out, _) ← c.tryOne o
    let (c, out') ← c.tryAll os
    return (c, out ++ out')

end Collector7

namespace Collector8

/-- `sysex8_collector::set_max_sysex_data_size(s)` (src/sysex_collector.cpp 148-154); `memory` tells whether an allocation
fails. -/
def trySetMaxSize (c : Collector8) (s : Nat) (memory : Bool) : Collector8 × Bool :=
  let c := { c with maxSize := s }
  if s ≠ 0 then
    if memory && vecReserveAllocates c.capacity s then (c, true)
    else ({ c with capacity := vecReserve c.capacity s }, false)
  else (c, false)

/-- The loop over payload bytes `b, b+1, .., b+k-1` (src/sysex_collector.cpp 209-243); only `push_back` (240) allocates. -/
def tryCollectLoop (c : Collector8) (p : Packet) (memory : Bool) (b : Nat) : Nat → Except Fault (Collector8 × Bool)
  | 0 => .ok (c, false)
  | k + 1 => do
    let byte ← sysex8PayloadByte p b
    if memory && decide (c.idState = .done) && vecPushAllocates c.capacity c.sysex.data.length then return (c, true)
    else (c.collect byte).tryCollectLoop p memory (b + 1) k

/-- `sysex8_collector::feed` after the first `switch` (src/sysex_collector.cpp 190-259). -/
def tryFeedPayload (c : Collector8) (m : Packet) (t : Trouble) : Except Fault (Collector8 × List (Sysex × Byte) × Bool) := do
  let numBytes := sysex8PayloadSize m
  if t.memory && ensureAllocates c.capacity c.maxSize c.sysex.data.length numBytes then
    return (c, [], true)
  else
    let (cap, accepted) := ensureCapacity c.capacity c.maxSize c.sysex.data.length numBytes
    let c := { c with capacity := cap }
    if !accepted then
      return ({ c with state := .start }, [], false)
    else
      let (c, threw) ← c.tryCollectLoop m t.memory 0 numBytes
      if threw then
        return (c, [], true)
      else if sysex8Format m = .complete ∨ sysex8Format m = .fin then
        if c.hasCallback then
          if t.callback then return (c, [(c.sysex, c.streamId)], true) else return (c.reset, [(c.sysex, c.streamId)], false)
        else return (c.reset, [], false)
      else
        return ({ c with state := .cont }, [], false)

/-- `sysex8_collector::feed(p)` (src/sysex_collector.cpp 158-259). -/
def tryFeed (c : Collector8) (p : Packet) (t : Trouble) : Except Fault (Collector8 × List (Sysex × Byte) × Bool) := do
  if !isSysex8Packet p then
    return (c, [], false)
  else
    let m ← sysex8View p
    let stream ← sysex8StreamId m
    if sysex8Format m = .complete ∨ sysex8Format m = .start then
      let c := if c.state ≠ .start then c.reset else c
      { c with streamId := stream }.tryFeedPayload m t
    else
      if c.state ≠ .cont then return (c.reset, [], false)
      else if stream ≠ c.streamId then return (c, [], false)
      else c.tryFeedPayload m t

/-- One call (inc/midi/sysex_collector.h 67-76). -/
def tryOne (c : Collector8) : CollectorTry → Except Fault (Collector8 × List (Sysex × Byte) × Bool)
  | .feed p t => c.tryFeed p t
  | .setMaxSize n memory => .ok ((c.trySetMaxSize n memory).1, [], (c.trySetMaxSize n memory).2)
  | .setCallback has => .ok (c.setCallback has, [], false)
  | .reset => .ok (c.reset, [], false)

/-- A sequence of calls by a caller that catches the exceptions and carries on (inc/midi/sysex_collector.h 67-76): the final
state and all messages delivered. -/
def tryAll (c : Collector8) : List CollectorTry → Except Fault (Collector8 × List (Sysex × Byte))
  | [] => .ok (c, [])
  | o :: os => do
    let (c, out, _) ← c.tryOne o
    let (c, out') ← c.tryAll os
    return (c, out ++ out')

end Collector8

/-! ## MIDI 1 byte stream parser

The capacity of the vector is not part of the model of the parser. So `memory` means that an allocation fails at the first place
where there can be one. -/

namespace Parser

/-- `if (m_invoke_callbacks) m_packet_callback(..)`, or `m_sysex_callback(..)`, with a callback that may throw
(src/midi1_byte_stream.cpp 105-109, 153-157, 187-191, 225-229, 301-305, 317-321, 351-354): the events, and whether there is an
exception. -/
def tryCall (s : Parser) (e : Event) (t : Trouble) : List Event × Bool :=
  if s.invokeCallbacks then ([e], t.callback) else ([], false)

/-- `system_realtime(byte)` (src/midi1_byte_stream.cpp 147-158). -/
def trySystemRealtime (s : Parser) (byte : Byte) (t : Trouble) : Parser × List Event × Bool :=
  if byte = 0xF9 ∨ byte = 0xFD then (s, [], false)
  else (s, s.tryCall (.packet (makeSystem s.group byte 0 0)) t)

/-- `system_common(byte)` (src/midi1_byte_stream.cpp 162-196). -/
def trySystemCommon (s : Parser) (byte : Byte) (t : Trouble) : Parser × List Event × Bool :=
  let s := { s with packet := makeSystem s.group byte 0 0, packetByte := 2, missing := 0 }
  let status := s.packet.status
  if status = SystemStatus.mtcQuarterFrame ∨ status = SystemStatus.songSelect then ({ s with missing := 1 }, [], false)
  else if status = SystemStatus.songPosition then ({ s with missing := 2 }, [], false)
  else if status = SystemStatus.tuneRequest then
    let (es, threw) := s.tryCall (.packet s.packet) t
    (if threw then s else { s with packet := {} }, es, threw)
  else ({ s with packet := {} }, [], false)

/-- `channel_voice(byte)` (src/midi1_byte_stream.cpp 200-231). -/
def tryChannelVoice (s : Parser) (byte : Byte) (t : Trouble) : Parser × List Event × Bool :=
  let s := { s with packet := midi1Message s.group byte 0 0, packetByte := 2, missing := 0 }
  let status := s.packet.status &&& 0xF0
  if status = CVStatus.noteOff ∨ status = CVStatus.noteOn ∨ status = CVStatus.polyPressure
      ∨ status = CVStatus.controlChange ∨ status = CVStatus.pitchBend then ({ s with missing := 2 }, [], false)
  else if status = CVStatus.programChange ∨ status = CVStatus.channelPressure then ({ s with missing := 1 }, [], false)
  else (s, s.tryCall (.packet s.packet) t)

/-- `sysex_start()` (src/midi1_byte_stream.cpp 235-250), where `reserve` (244) may fail. -/
def trySysexStart (s : Parser) (t : Trouble) : Except Fault (Parser × List Event × Bool) := do
  let p ← makeSysex7 .start s.group
  let s := { s with packet := p, packetByte := 2, missing := 0 }
  if s.hasSysexCallback then
    let s := { s with sysex := s.sysex.clear }
    if t.memory then return (s, [], true)
    else return ({ s with packetByte := if s.invokeCallbacks then 2 else 0 }, [], false)
  else
    return (s, [], false)

/-- `sysex_continue_callback(byte)` (src/midi1_byte_stream.cpp 254-287), where `reserve` (282) or `push_back` (286) may fail. -/
def trySysexContinueCallback (s : Parser) (byte : Byte) (t : Trouble) : Parser × Bool :=
  if s.packetByte = 0 ∨ s.packetByte = 1 then (s, false)
  else if s.packetByte = 2 then
    ({ s with sysex := { s.sysex with manufacturerID := byte.setWidth 32 <<< 16 }, packetByte := s.packetByte + 1 }, false)
  else if (s.packetByte = 3 ∨ s.packetByte = 4) ∧ s.sysex.manufacturerID &&& 0xFF0000 = 0 then
    ({ s with
        sysex := { s.sysex with
          manufacturerID := s.sysex.manufacturerID + (byte.setWidth 32 <<< ((4 - s.packetByte.toNat) * 8)) }
        packetByte := s.packetByte + 1 }, false)
  else if t.memory then (s, true)
  else ({ s with sysex := { s.sysex with data := s.sysex.data ++ [byte] } }, false)

/-- `sysex_end_callback()` (src/midi1_byte_stream.cpp 291-307). -/
def trySysexEndCallback (s : Parser) (t : Trouble) : Parser × List Event × Bool :=
  let s := { s with packet := {} }
  if s.sysex.manufacturerID &&& 0xFF0000 = 0 ∧ s.packetByte < 5 then (s, [], false)
  else
    let (es, threw) := s.tryCall (.sysex s.sysex) t
    (if threw then s else { s with sysex := s.sysex.clear }, es, threw)

/-- `sysex_continue_packet(byte)` (src/midi1_byte_stream.cpp 311-326). -/
def trySysexContinuePacket (s : Parser) (byte : Byte) (t : Trouble) : Except Fault (Parser × List Event × Bool) := do
  let p ← s.packet.setByte s.packetByte.toNat byte
  let s := { s with packet := p, packetByte := s.packetByte + 1 }
  if s.packetByte = 8 then
    let (s, es, threw) ← if s.invokeCallbacks then do
        let q ← s.packet.setByte 1 ((s.packet.status &&& 0xF0) + 6)
        let s := { s with packet := q }
        pure (s, s.tryCall (.packet s.packet) t)
      else pure (s, [], false)
    if threw then return (s, es, true)
    else
      let c ← makeSysex7 .cont s.group
      return ({ s with packet := c, packetByte := 2 }, es, false)
  else return (s, [], false)

/-- `sysex_end_packet()` (src/midi1_byte_stream.cpp 330-358). -/
def trySysexEndPacket (s : Parser) (t : Trouble) : Except Fault (Parser × List Event × Bool) := do
  let cur := s.packet.status &&& 0xF0
  let size := (s.packetByte - 2) &&& 0x0F
  if cur = Format.start.status ∧ s.packetByte < 3 then
    return ({ s with packet := {} }, [], false)
  else
    let q ← s.packet.setByte 1 ((if cur = Format.start.status then Format.complete.status else Format.fin.status) + size)
    let s := { s with packet := q }
    let (es, threw) := s.tryCall (.packet s.packet) t
    if threw then return (s, es, true)
    else return ({ s with packet := {}, packetByte := 2 }, es, false)

/-- The data byte branch of `feed` outside of sysex (src/midi1_byte_stream.cpp 90-121). -/
def tryDataByte (s : Parser) (byte : Byte) (t : Trouble) : Except Fault (Parser × List Event × Bool) :=
  if s.packet.status ≠ 0 ∧ s.missing ≠ 0 ∧ s.packetByte < 4 then do
    let p ← s.packet.setByte s.packetByte.toNat byte
    let s := { s with packet := p, missing := s.missing - 1 }
    if s.missing = 0 then
      let s := if s.packet.status < 0xF0 then { s with missing := s.packetByte - 1, packetByte := 2 } else s
      let (es, threw) := s.tryCall (.packet s.packet) t
      if threw then return (s, es, true)
      else return (if s.packet.status ≥ 0xF0 then { s with packet := {} } else s, es, false)
    else return ({ s with packetByte := s.packetByte + 1 }, [], false)
  else .ok (s, [], false)

/-- The part of `feed` behind the treatment of sysex in progress (src/midi1_byte_stream.cpp 78-121). -/
def tryFeedStatus (s : Parser) (byte : Byte) (t : Trouble) : Except Fault (Parser × List Event × Bool) :=
  if byte = 0xF0 then s.trySysexStart t
  else if byte > 0xF0 then .ok (s.trySystemCommon byte t)
  else if byte ≥ 0x80 then .ok (s.tryChannelVoice byte t)
  else s.tryDataByte byte t

/-- `feed(byte)` (src/midi1_byte_stream.cpp 35-122), with what goes wrong. -/
def tryFeed (s : Parser) (byte : Byte) (t : Trouble) : Except Fault (Parser × List Event × Bool) :=
  if byte ≥ SystemStatus.clock then .ok (s.trySystemRealtime byte t)
  else if s.packet.type = PacketType.data then
    if byte < 0x80 then
      if s.hasSysexCallback then
        .ok ((s.trySysexContinueCallback byte t).1, [], (s.trySysexContinueCallback byte t).2)
      else s.trySysexContinuePacket byte t
    else if byte ≠ 0xF7 then tryFeedStatus { s with packet := {} } byte t
    else if s.hasSysexCallback then .ok (s.trySysexEndCallback t) else s.trySysexEndPacket t
  else s.tryFeedStatus byte t

/-- `feed(begin, end)`, `feed(data, num_bytes)` (src/midi1_byte_stream.cpp 126-132, inc/midi/midi1_byte_stream.h 138-141): an
exception ends the loop, the bytes behind are not read. -/
def tryBlock (s : Parser) : List (Byte × Trouble) → Except Fault (Parser × List Event × Bool)
  | [] => .ok (s, [], false)
  | (b, t) :: bs => do
    let (s, es, threw) ← s.tryFeed b t
    if threw then return (s, es, true)
    else
      let (s, fs, threw) ← s.tryBlock bs
      return (s, es ++ fs, threw)

/-- A call of a member function of the parser (inc/midi/midi1_byte_stream.h 51-60), and what goes wrong during it. -/
inductive Try where
  | feed (bytes : List (Byte × Trouble))
  | setGroup (group : Byte)
  | enable (on : Bool)
  | reset
deriving DecidableEq, Repr

/-- One call (inc/midi/midi1_byte_stream.h 51-60). -/
def tryOne (s : Parser) : Try → Except Fault (Parser × List Event × Bool)
  | .feed bs => s.tryBlock bs
  | .setGroup g => .ok (s.setGroup g, [], false)
  | .enable on => .ok (s.enableCallbacks on, [], false)
  | .reset => .ok (s.reset, [], false)

/-- A sequence of calls by a caller that catches the exceptions and carries on (inc/midi/midi1_byte_stream.h 51-60). -/
def tryAll (s : Parser) : List Try → Except Fault (Parser × List Event)
  | [] => .ok (s, [])
  | o :: os => do
    let (s, es, _) ← s.tryOne o
    let (s, fs) ← s.tryAll os
    return (s, es ++ fs)

end Parser

end Midi
