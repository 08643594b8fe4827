import Verif.Model.ByteStream
import Verif.Model.CollectorHistory

/-!
# Callbacks that use the object that calls them

The models in `Verif.Model.ByteStream` and `Verif.Model.Collector` return the calls of a callback as a list, so that a callback
does not touch the object. Here the same functions are modelled with a callback that may call member functions of the object
that called it. A call of `feed` with one byte or one packet calls the callback at most once; so a call that feeds carries what
the callback does if it is called, which may again be calls that feed, to any depth. Replacing the callback of a collector from
within that callback is left out, because this destroys the function that is running.

The events are in the order in which the callbacks are entered. An event holds the arguments at this moment; the sysex message
is passed by reference, so that the callback can see it change when it uses the object.
-/

namespace Midi

/-! ## MIDI 1 byte stream parser -/

namespace Parser

/-- What a callback does with the parser: its new state, and the callbacks called meanwhile. -/
abbrev Reaction := Parser → Except Fault (Parser × List Event)

/-- `if (m_invoke_callbacks) m_packet_callback(..)`, or `m_sysex_callback(..)`, with a callback that uses the parser
(src/midi1_byte_stream.cpp 105-109, 153-157, 187-191, 225-229, 301-305, 317-321, 351-354). -/
def call (s : Parser) (e : Event) (react : Reaction) : Except Fault (Parser × List Event) :=
  if s.invokeCallbacks then do
    let (s, es) ← react s
    return (s, e :: es)
  else return (s, [])

/-- `system_realtime(byte)` (src/midi1_byte_stream.cpp 147-158). -/
def systemRealtimeR (s : Parser) (byte : Byte) (react : Reaction) : Except Fault (Parser × List Event) :=
  if byte = 0xF9 ∨ byte = 0xFD then return (s, [])
  else s.call (.packet (makeSystem s.group byte 0 0)) react

/-- `system_common(byte)` (src/midi1_byte_stream.cpp 162-196). -/
def systemCommonR (s : Parser) (byte : Byte) (react : Reaction) : Except Fault (Parser × List Event) := do
  let s := { s with packet := makeSystem s.group byte 0 0, packetByte := 2, missing := 0 }
  let status := s.packet.status
  if status = SystemStatus.mtcQuarterFrame ∨ status = SystemStatus.songSelect then return ({ s with missing := 1 }, [])
  else if status = SystemStatus.songPosition then return ({ s with missing := 2 }, [])
  else if status = SystemStatus.tuneRequest then
    let (s, es) ← s.call (.packet s.packet) react
    return ({ s with packet := {} }, es)
  else return ({ s with packet := {} }, [])

/-- `channel_voice(byte)` (src/midi1_byte_stream.cpp 200-231). -/
def channelVoiceR (s : Parser) (byte : Byte) (react : Reaction) : Except Fault (Parser × List Event) :=
  let s := { s with packet := midi1Message s.group byte 0 0, packetByte := 2, missing := 0 }
  let status := s.packet.status &&& 0xF0
  if status = CVStatus.noteOff ∨ status = CVStatus.noteOn ∨ status = CVStatus.polyPressure
      ∨ status = CVStatus.controlChange ∨ status = CVStatus.pitchBend then return ({ s with missing := 2 }, [])
  else if status = CVStatus.programChange ∨ status = CVStatus.channelPressure then return ({ s with missing := 1 }, [])
  else s.call (.packet s.packet) react

/-- `sysex_end_callback()` (src/midi1_byte_stream.cpp 291-307). -/
def sysexEndCallbackR (s : Parser) (react : Reaction) : Except Fault (Parser × List Event) := do
  let s := { s with packet := {} }
  if s.sysex.manufacturerID &&& 0xFF0000 = 0 ∧ s.packetByte < 5 then return (s, [])
  else
    let (s, es) ← s.call (.sysex s.sysex) react
    return ({ s with sysex := s.sysex.clear }, es)

/-- `sysex_continue_packet(byte)` (src/midi1_byte_stream.cpp 311-326). -/
def sysexContinuePacketR (s : Parser) (byte : Byte) (react : Reaction) : Except Fault (Parser × List Event) := do
  let p ← s.packet.setByte s.packetByte.toNat byte
  let s := { s with packet := p, packetByte := s.packetByte + 1 }
  if s.packetByte = 8 then
    let (s, es) ← if s.invokeCallbacks then do
        let q ← s.packet.setByte 1 ((s.packet.status &&& 0xF0) + 6)
        let s := { s with packet := q }
        s.call (.packet s.packet) react
      else pure (s, [])
    let c ← makeSysex7 .cont s.group
    return ({ s with packet := c, packetByte := 2 }, es)
  else return (s, [])

/-- `sysex_end_packet()` (src/midi1_byte_stream.cpp 330-358). -/
def sysexEndPacketR (s : Parser) (react : Reaction) : Except Fault (Parser × List Event) := do
  let cur := s.packet.status &&& 0xF0
  let size := (s.packetByte - 2) &&& 0x0F
  if cur = Format.start.status ∧ s.packetByte < 3 then
    return ({ s with packet := {} }, [])
  else
    let q ← s.packet.setByte 1 ((if cur = Format.start.status then Format.complete.status else Format.fin.status) + size)
    let s := { s with packet := q }
    let (s, es) ← s.call (.packet s.packet) react
    return ({ s with packet := {}, packetByte := 2 }, es)

/-- The data byte branch of `feed` outside of sysex (src/midi1_byte_stream.cpp 90-121). -/
def dataByteR (s : Parser) (byte : Byte) (react : Reaction) : Except Fault (Parser × List Event) :=
  if s.packet.status ≠ 0 ∧ s.missing ≠ 0 ∧ s.packetByte < 4 then do
    let p ← s.packet.setByte s.packetByte.toNat byte
    let s := { s with packet := p, missing := s.missing - 1 }
    if s.missing = 0 then
      let s := if s.packet.status < 0xF0 then { s with missing := s.packetByte - 1, packetByte := 2 } else s
      let (s, es) ← s.call (.packet s.packet) react
      return (if s.packet.status ≥ 0xF0 then { s with packet := {} } else s, es)
    else return ({ s with packetByte := s.packetByte + 1 }, [])
  else .ok (s, [])

/-- The part of `feed` behind the treatment of sysex in progress (src/midi1_byte_stream.cpp 78-121). -/
def feedStatusR (s : Parser) (byte : Byte) (react : Reaction) : Except Fault (Parser × List Event) :=
  if byte = 0xF0 then s.sysexStart
  else if byte > 0xF0 then s.systemCommonR byte react
  else if byte ≥ 0x80 then s.channelVoiceR byte react
  else s.dataByteR byte react

/-- `feed(byte)` (src/midi1_byte_stream.cpp 35-122), with a callback that uses the parser. -/
def feedR (s : Parser) (byte : Byte) (react : Reaction) : Except Fault (Parser × List Event) :=
  if byte ≥ SystemStatus.clock then s.systemRealtimeR byte react
  else if s.packet.type = PacketType.data then
    if byte < 0x80 then
      if s.hasSysexCallback then .ok (s.sysexContinueCallback byte, []) else s.sysexContinuePacketR byte react
    else if byte ≠ 0xF7 then feedStatusR { s with packet := {} } byte react
    else if s.hasSysexCallback then s.sysexEndCallbackR react else s.sysexEndPacketR react
  else s.feedStatusR byte react

/-- A call of a member function of the parser (inc/midi/midi1_byte_stream.h 51-60). A byte is fed together with the calls that
the callback makes, if it is called while this byte is processed; feeding several bytes at once is the same as feeding them one
after the other (src/midi1_byte_stream.cpp 126-132). -/
inductive Call where
  | feed (byte : Byte) (inside : List Call)
  | setGroup (group : Byte)
  | enable (on : Bool)
  | reset

mutual
/-- Performs one call (inc/midi/midi1_byte_stream.h 51-60). -/
def perform (s : Parser) : Call → Except Fault (Parser × List Event)
  | .feed byte inside => s.feedR byte (fun s => performAll s inside)
  | .setGroup g => .ok (s.setGroup g, [])
  | .enable on => .ok (s.enableCallbacks on, [])
  | .reset => .ok (s.reset, [])

/-- Performs calls (inc/midi/midi1_byte_stream.h 51-60), one after the other. -/
def performAll (s : Parser) : List Call → Except Fault (Parser × List Event)
  | [] => .ok (s, [])
  | c :: cs => do
    let (s, e) ← s.perform c
    let (s, es) ← performAll s cs
    return (s, e ++ es)
end

end Parser

/-! ## Sysex collectors -/

/-- A call of a member function of `sysex7_collector` or `sysex8_collector` (inc/midi/sysex_collector.h 42-51 and 67-76). A
packet is fed together with the calls that the callback makes, if it is called while this packet is processed. -/
inductive CollectorCall where
  | feed (p : Packet) (inside : List CollectorCall)
  | setMaxSize (n : Nat)
  | reset

namespace Collector7

/-- `sysex7_collector::feed` after the first `switch` (src/sysex_collector.cpp 71-135); `react` is what the callback does with
the collector. -/
def feedPayloadR (c : Collector7) (m : Packet) (react : Collector7 → Except Fault (Collector7 × List Sysex)) :
    Except Fault (Collector7 × List Sysex) := do
  let numBytes := sysex7PayloadSize m
  let (cap, accepted) := ensureCapacity c.capacity c.maxSize c.sysex.data.length numBytes
  let c := { c with capacity := cap }
  if !accepted then
    return ({ c with state := 0x10 }, [])
  else
    let c ← c.collectLoop m 0 numBytes
    if sysex7ViewStatus m = 0x00 ∨ sysex7ViewStatus m = 0x30 then
      if c.hasCallback then
        let (d, out) ← react c
        return (d.reset, c.sysex :: out)
      else return (c.reset, [])
    else
      return ({ c with state := 0x20 }, [])

/-- `sysex7_collector::feed(p)` (src/sysex_collector.cpp 45-135). -/
def feedR (c : Collector7) (p : Packet) (react : Collector7 → Except Fault (Collector7 × List Sysex)) :
    Except Fault (Collector7 × List Sysex) := do
  if !isSysex7Packet p then
    return (c, [])
  else
    let m ← sysex7View p
    if sysex7ViewStatus m = 0x00 ∨ sysex7ViewStatus m = 0x10 then
      if c.state ≠ 0x10 then c.reset.feedPayloadR m react else c.feedPayloadR m react
    else
      if c.state ≠ 0x20 then return (c.reset, []) else c.feedPayloadR m react

mutual
/-- Performs one call (inc/midi/sysex_collector.h 42-51). -/
def perform (c : Collector7) : CollectorCall → Except Fault (Collector7 × List Sysex)
  | .feed p inside => c.feedR p (fun c => performAll c inside)
  | .setMaxSize n => .ok (c.setMaxSize n, [])
  | .reset => .ok (c.reset, [])

/-- Performs calls (inc/midi/sysex_collector.h 42-51), one after the other. -/
def performAll (c : Collector7) : List CollectorCall → Except Fault (Collector7 × List Sysex)
  | [] => .ok (c, [])
  | o :: os => do
    let (c, out) ← c.perform o
    let (c, out') ← performAll c os
    return (c, out ++ out')
end

end Collector7

namespace Collector8

/-- `sysex8_collector::feed` after the first `switch` (src/sysex_collector.cpp 190-259); `react` is what the callback does with
the collector. -/
def feedPayloadR (c : Collector8) (m : Packet) (react : Collector8 → Except Fault (Collector8 × List (Sysex × Byte))) :
    Except Fault (Collector8 × List (Sysex × Byte)) := do
  let numBytes := sysex8PayloadSize m
  let (cap, accepted) := ensureCapacity c.capacity c.maxSize c.sysex.data.length numBytes
  let c := { c with capacity := cap }
  if !accepted then
    return ({ c with state := .start }, [])
  else
    let c ← c.collectLoop m 0 numBytes
    if sysex8Format m = .complete ∨ sysex8Format m = .fin then
      if c.hasCallback then
        let (d, out) ← react c
        return (d.reset, (c.sysex, c.streamId) :: out)
      else return (c.reset, [])
    else
      return ({ c with state := .cont }, [])

/-- `sysex8_collector::feed(p)` (src/sysex_collector.cpp 158-259). -/
def feedR (c : Collector8) (p : Packet) (react : Collector8 → Except Fault (Collector8 × List (Sysex × Byte))) :
    Except Fault (Collector8 × List (Sysex × Byte)) := do
  if !isSysex8Packet p then
    return (c, [])
  else
    let m ← sysex8View p
    let stream ← sysex8StreamId m
    if sysex8Format m = .complete ∨ sysex8Format m = .start then
      let c := if c.state ≠ .start then c.reset else c
      { c with streamId := stream }.feedPayloadR m react
    else
      if c.state ≠ .cont then return (c.reset, [])
      else if stream ≠ c.streamId then return (c, [])
      else c.feedPayloadR m react

mutual
/-- Performs one call (inc/midi/sysex_collector.h 67-76). -/
def perform (c : Collector8) : CollectorCall → Except Fault (Collector8 × List (Sysex × Byte))
  | .feed p inside => c.feedR p (fun c => performAll c inside)
  | .setMaxSize n => .ok (c.setMaxSize n, [])
  | .reset => .ok (c.reset, [])

/-- Performs calls (inc/midi/sysex_collector.h 67-76), one after the other. -/
def performAll (c : Collector8) : List CollectorCall → Except Fault (Collector8 × List (Sysex × Byte))
  | [] => .ok (c, [])
  | o :: os => do
    let (c, out) ← c.perform o
    let (c, out') ← performAll c os
    return (c, out ++ out')
end

end Collector8

end Midi
