import Verif.Model.Release
import Verif.Model.Exceptions

/-!
# The MIDI 1 byte stream parser in a build without assertions

The functions of `Verif.Model.Exceptions`, with callbacks that throw and allocations that fail, as they are in a build with
`NDEBUG`: they use `set_byte` and the factories of sysex7 packets without assertions. None of them can fault, so they return
their results. Functions that can not run into an assertion are those of `Verif.Model.Exceptions`.
-/

namespace Midi.Release

open Parser (Try)

/-- `sysex_start()` (src/midi1_byte_stream.cpp 235-250). -/
def trySysexStart (s : Parser) (t : Trouble) : Parser × List Event × Bool :=
  let s := { s with packet := makeSysex7 .start s.group, packetByte := 2, missing := 0 }
  if s.hasSysexCallback then
    let s := { s with sysex := s.sysex.clear }
    if t.memory then (s, [], true)
    else ({ s with packetByte := if s.invokeCallbacks then 2 else 0 }, [], false)
  else (s, [], false)

/-- `sysex_continue_packet(byte)` (src/midi1_byte_stream.cpp 311-326); `m_packet_byte` is an `uint8_t`
(inc/midi/midi1_byte_stream.h) and goes on with 0 behind 255. -/
def trySysexContinuePacket (s : Parser) (byte : Byte) (t : Trouble) : Parser × List Event × Bool :=
  let s := { s with packet := setByte s.packet s.packetByte.toNat byte, packetByte := s.packetByte + 1 }
  if s.packetByte = 8 then
    let s := if s.invokeCallbacks then { s with packet := setByte s.packet 1 ((s.packet.status &&& 0xF0) + 6) } else s
    let (es, threw) := s.tryCall (.packet s.packet) t
    if threw then (s, es, true)
    else ({ s with packet := makeSysex7 .cont s.group, packetByte := 2 }, es, false)
  else (s, [], false)

/-- `sysex_end_packet()` (src/midi1_byte_stream.cpp 330-358). -/
def trySysexEndPacket (s : Parser) (t : Trouble) : Parser × List Event × Bool :=
  let cur := s.packet.status &&& 0xF0
  let size := (s.packetByte - 2) &&& 0x0F
  if cur = Format.start.status ∧ s.packetByte < 3 then ({ s with packet := {} }, [], false)
  else
    let status := if cur = Format.start.status then Format.complete.status else Format.fin.status
    let s := { s with packet := setByte s.packet 1 (status + size) }
    let (es, threw) := s.tryCall (.packet s.packet) t
    if threw then (s, es, true) else ({ s with packet := {}, packetByte := 2 }, es, false)

/-- The data byte branch of `feed` outside of sysex (src/midi1_byte_stream.cpp 90-121). -/
def tryDataByte (s : Parser) (byte : Byte) (t : Trouble) : Parser × List Event × Bool :=
  if s.packet.status ≠ 0 ∧ s.missing ≠ 0 ∧ s.packetByte < 4 then
    let s := { s with packet := setByte s.packet s.packetByte.toNat byte, missing := s.missing - 1 }
    if s.missing = 0 then
      let s := if s.packet.status < 0xF0 then { s with missing := s.packetByte - 1, packetByte := 2 } else s
      let (es, threw) := s.tryCall (.packet s.packet) t
      if threw then (s, es, true)
      else (if s.packet.status ≥ 0xF0 then { s with packet := {} } else s, es, false)
    else ({ s with packetByte := s.packetByte + 1 }, [], false)
  else (s, [], false)

/-- The part of `feed` behind the treatment of sysex in progress (src/midi1_byte_stream.cpp 78-121). -/
def tryFeedStatus (s : Parser) (byte : Byte) (t : Trouble) : Parser × List Event × Bool :=
  if byte = 0xF0 then trySysexStart s t
  else if byte > 0xF0 then s.trySystemCommon byte t
  else if byte ≥ 0x80 then s.tryChannelVoice byte t
  else tryDataByte s byte t

/-- `feed(byte)` (src/midi1_byte_stream.cpp 35-122), with what goes wrong. -/
def tryFeed (s : Parser) (byte : Byte) (t : Trouble) : Parser × List Event × Bool :=
  if byte ≥ SystemStatus.clock then s.trySystemRealtime byte t
  else if s.packet.type = PacketType.data then
    if byte < 0x80 then
      if s.hasSysexCallback then ((s.trySysexContinueCallback byte t).1, [], (s.trySysexContinueCallback byte t).2)
      else trySysexContinuePacket s byte t
    else if byte ≠ 0xF7 then tryFeedStatus { s with packet := {} } byte t
    else if s.hasSysexCallback then s.trySysexEndCallback t else trySysexEndPacket s t
  else tryFeedStatus s byte t

/-- `feed(begin, end)`, `feed(data, num_bytes)` (src/midi1_byte_stream.cpp 126-132, inc/midi/midi1_byte_stream.h 138-141): an
exception ends the loop, the bytes behind are not read. -/
def tryBlock (s : Parser) : List (Byte × Trouble) → Parser × List Event × Bool
  | [] => (s, [], false)
  | (b, t) :: bs =>
    let (s, es, threw) := tryFeed s b t
    if threw then (s, es, true)
    else
      let (s, fs, threw) := tryBlock s bs
      (s, es ++ fs, threw)

/-- One call (inc/midi/midi1_byte_stream.h 51-60). -/
def tryOne (s : Parser) : Try → Parser × List Event × Bool
  | .feed bs => tryBlock s bs
  | .setGroup g => (s.setGroup g, [], false)
  | .enable on => (s.enableCallbacks on, [], false)
  | .reset => (s.reset, [], false)

/-- A sequence of calls by a caller that catches the exceptions and carries on (inc/midi/midi1_byte_stream.h 51-60). -/
def tryAll (s : Parser) : List Try → Parser × List Event
  | [] => (s, [])
  | o :: os =>
    let (s, es, _) := tryOne s o
    let (s, fs) := tryAll s os
    (s, es ++ fs)

/-- A single call of `feed` with nothing going wrong (src/midi1_byte_stream.cpp 126-132). -/
def feedAll (s : Parser) (bs : List Byte) : Parser × List Event :=
  ((tryBlock s (bs.map fun b => (b, {}))).1, (tryBlock s (bs.map fun b => (b, {}))).2.1)

end Midi.Release
