import Verif.Model.Messages
import Verif.Model.Sysex

/-!
# MIDI 1 byte streams

Models inc/midi/midi1_byte_stream.h and src/midi1_byte_stream.cpp.
-/

namespace Midi

/-- One invocation of a callback of `midi1_byte_stream_parser`: the packet callback or the sysex callback
(inc/midi/midi1_byte_stream.h 43-44). -/
inductive Event where
  | packet (p : Packet)
  | sysex (s : Sysex)
deriving DecidableEq, Repr

/-- The members of `midi1_byte_stream_parser` (inc/midi/midi1_byte_stream.h 77-86). The packet callback is taken to be
non-empty; of the sysex callback only its presence is kept. For callbacks that call back into the parser see
`Verif.Model.Reentrant`. -/
structure Parser where
  group : Byte := 0
  hasSysexCallback : Bool := false
  invokeCallbacks : Bool := true
  packet : Packet := {}
  sysex : Sysex := {}
  packetByte : Byte := 0
  missing : Byte := 0
deriving DecidableEq, Repr

namespace Parser

/-- The constructor with a group (inc/midi/midi1_byte_stream.h 111-120); the one without has group 0 (102-109). -/
def new (group : Byte) (hasSysexCallback enableCallbacks : Bool) : Parser :=
  { group := group, hasSysexCallback := hasSysexCallback, invokeCallbacks := enableCallbacks }

/-- `enable_callbacks(enable)` (inc/midi/midi1_byte_stream.h 51). -/
def enableCallbacks (s : Parser) (enable : Bool) : Parser := { s with invokeCallbacks := enable }

/-- `set_group(group)` (inc/midi/midi1_byte_stream.h 131-134). -/
def setGroup (s : Parser) (group : Byte) : Parser := { s with group := group }

/-- `reset()` (src/midi1_byte_stream.cpp 136-143). -/
def reset (s : Parser) : Parser :=
  { s with packet := {}, sysex := s.sysex.clear, packetByte := 1, missing := 0 }

/-- `if (m_invoke_callbacks) m_packet_callback(p)` (src/midi1_byte_stream.cpp 105-108, 154-157, 186-189, 224-227,
351-354). -/
def post (s : Parser) (p : Packet) : List Event := if s.invokeCallbacks then [.packet p] else []

/-- `system_realtime(byte)` (src/midi1_byte_stream.cpp 147-158). -/
def systemRealtime (s : Parser) (byte : Byte) : Parser × List Event :=
  if byte = 0xF9 ∨ byte = 0xFD then (s, [])
  else (s, s.post (makeSystem s.group byte 0 0))

/-- `system_common(byte)` (src/midi1_byte_stream.cpp 162-196). -/
def systemCommon (s : Parser) (byte : Byte) : Parser × List Event :=
  let s := { s with packet := makeSystem s.group byte 0 0, packetByte := 2, missing := 0 }
  let status := s.packet.status
  if status = SystemStatus.mtcQuarterFrame ∨ status = SystemStatus.songSelect then ({ s with missing := 1 }, [])
  else if status = SystemStatus.songPosition then ({ s with missing := 2 }, [])
  else if status = SystemStatus.tuneRequest then ({ s with packet := {} }, s.post s.packet)
  else ({ s with packet := {} }, [])

/-- `channel_voice(byte)` (src/midi1_byte_stream.cpp 200-231). -/
def channelVoice (s : Parser) (byte : Byte) : Parser × List Event :=
  let s := { s with packet := midi1Message s.group byte 0 0, packetByte := 2, missing := 0 }
  let status := s.packet.status &&& 0xF0
  if status = CVStatus.noteOff ∨ status = CVStatus.noteOn ∨ status = CVStatus.polyPressure
      ∨ status = CVStatus.controlChange ∨ status = CVStatus.pitchBend then ({ s with missing := 2 }, [])
  else if status = CVStatus.programChange ∨ status = CVStatus.channelPressure then ({ s with missing := 1 }, [])
  else (s, s.post s.packet)

/-- `sysex_start()` (src/midi1_byte_stream.cpp 235-250), without the reservation of memory. -/
def sysexStart (s : Parser) : Except Fault (Parser × List Event) := do
  let p ← makeSysex7 .start s.group
  let s := { s with packet := p, packetByte := 2, missing := 0 }
  if s.hasSysexCallback then
    return ({ s with sysex := s.sysex.clear, packetByte := if s.invokeCallbacks then 2 else 0 }, [])
  else
    return (s, [])

/-- `sysex_continue_callback(byte)` (src/midi1_byte_stream.cpp 254-287), without the reservation of memory. -/
def sysexContinueCallback (s : Parser) (byte : Byte) : Parser :=
  if s.packetByte = 0 ∨ s.packetByte = 1 then s
  else if s.packetByte = 2 then
    { s with sysex := { s.sysex with manufacturerID := byte.setWidth 32 <<< 16 }, packetByte := s.packetByte + 1 }
  else if (s.packetByte = 3 ∨ s.packetByte = 4) ∧ s.sysex.manufacturerID &&& 0xFF0000 = 0 then
    { s with
      sysex := { s.sysex with
        manufacturerID := s.sysex.manufacturerID + (byte.setWidth 32 <<< ((4 - s.packetByte.toNat) * 8)) }
      packetByte := s.packetByte + 1 }
  else { s with sysex := { s.sysex with data := s.sysex.data ++ [byte] } }

/-- `sysex_end_callback()` (src/midi1_byte_stream.cpp 291-307). -/
def sysexEndCallback (s : Parser) : Parser × List Event :=
  let s := { s with packet := {} }
  if s.sysex.manufacturerID &&& 0xFF0000 = 0 ∧ s.packetByte < 5 then (s, [])
  else ({ s with sysex := s.sysex.clear }, if s.invokeCallbacks then [.sysex s.sysex] else [])

/-- `sysex_continue_packet(byte)` (src/midi1_byte_stream.cpp 311-326). -/
def sysexContinuePacket (s : Parser) (byte : Byte) : Except Fault (Parser × List Event) := do
  let p ← s.packet.setByte s.packetByte.toNat byte
  let s := { s with packet := p, packetByte := s.packetByte + 1 }
  if s.packetByte = 8 then
    let out ← if s.invokeCallbacks then do
        let q ← s.packet.setByte 1 ((s.packet.status &&& 0xF0) + 6)
        pure [Event.packet q]
      else pure []
    let c ← makeSysex7 .cont s.group
    return ({ s with packet := c, packetByte := 2 }, out)
  else return (s, [])

/-- `sysex_end_packet()` (src/midi1_byte_stream.cpp 330-358). -/
def sysexEndPacket (s : Parser) : Except Fault (Parser × List Event) := do
  let cur := s.packet.status &&& 0xF0
  let size := (s.packetByte - 2) &&& 0x0F
  if cur = Format.start.status ∧ s.packetByte < 3 then
    return ({ s with packet := {} }, [])
  else
    let q ← s.packet.setByte 1 ((if cur = Format.start.status then Format.complete.status else Format.fin.status) + size)
    return ({ s with packet := {}, packetByte := 2 }, s.post q)

/-- The data byte branch of `feed` outside of sysex (src/midi1_byte_stream.cpp 90-121). -/
def dataByte (s : Parser) (byte : Byte) : Except Fault (Parser × List Event) :=
  if s.packet.status ≠ 0 ∧ s.missing ≠ 0 ∧ s.packetByte < 4 then do
    let p ← s.packet.setByte s.packetByte.toNat byte
    let s := { s with packet := p, missing := s.missing - 1 }
    if s.missing = 0 then
      let s := if s.packet.status < 0xF0 then { s with missing := s.packetByte - 1, packetByte := 2 } else s
      return (if s.packet.status ≥ 0xF0 then { s with packet := {} } else s, s.post s.packet)
    else return ({ s with packetByte := s.packetByte + 1 }, [])
  else .ok (s, [])

/-- The part of `feed` behind the treatment of sysex in progress (src/midi1_byte_stream.cpp 78-121). -/
def feedStatus (s : Parser) (byte : Byte) : Except Fault (Parser × List Event) :=
  if byte = 0xF0 then s.sysexStart
  else if byte > 0xF0 then .ok (s.systemCommon byte)
  else if byte ≥ 0x80 then .ok (s.channelVoice byte)
  else s.dataByte byte

/-- `feed(byte)` (src/midi1_byte_stream.cpp 35-122). -/
def feed (s : Parser) (byte : Byte) : Except Fault (Parser × List Event) :=
  if byte ≥ SystemStatus.clock then .ok (s.systemRealtime byte)
  else if s.packet.type = PacketType.data then
    if byte < 0x80 then
      if s.hasSysexCallback then .ok (s.sysexContinueCallback byte, []) else s.sysexContinuePacket byte
    else if byte ≠ 0xF7 then feedStatus { s with packet := {} } byte
    else if s.hasSysexCallback then .ok s.sysexEndCallback else s.sysexEndPacket
  else s.feedStatus byte

/-- `feed(begin, end)`, `feed(data, num_bytes)` (src/midi1_byte_stream.cpp 126-132,
inc/midi/midi1_byte_stream.h 138-141). -/
def feedAll (s : Parser) : List Byte → Except Fault (Parser × List Event)
  | [] => .ok (s, [])
  | b :: bs => do
    let (s, e) ← s.feed b
    let (s, es) ← feedAll s bs
    return (s, e ++ es)

/-- The public operations that change a parser (inc/midi/midi1_byte_stream.h 51-60). -/
inductive Op where
  | feed (bytes : List Byte)
  | setGroup (group : Byte)
  | enable (on : Bool)
  | reset
deriving DecidableEq, Repr

/-- One operation. -/
def op (s : Parser) : Op → Except Fault (Parser × List Event)
  | .feed bytes => s.feedAll bytes
  | .setGroup g => .ok (s.setGroup g, [])
  | .enable on => .ok (s.enableCallbacks on, [])
  | .reset => .ok (s.reset, [])

/-- A sequence of operations. -/
def run (s : Parser) : List Op → Except Fault (Parser × List Event)
  | [] => .ok (s, [])
  | o :: os => do
    let (s, e) ← s.op o
    let (s, es) ← run s os
    return (s, e ++ es)

end Parser

/-- `midi1_byte_stream_size(p)` (inc/midi/midi1_byte_stream.h 145-199). -/
def midi1ByteStreamSize (p : Packet) : Nat :=
  if p.type = PacketType.system then
    if p.status = SystemStatus.songPosition then 3
    else if p.status = SystemStatus.mtcQuarterFrame ∨ p.status = SystemStatus.songSelect then 2
    else if p.status = SystemStatus.tuneRequest ∨ p.status = SystemStatus.clock ∨ p.status = SystemStatus.start
        ∨ p.status = SystemStatus.cont ∨ p.status = SystemStatus.stop ∨ p.status = SystemStatus.activeSense
        ∨ p.status = SystemStatus.reset then 1
    else 0
  else if p.type = PacketType.midi1ChannelVoice then
    let s := p.status &&& 0xF0
    if s = CVStatus.noteOff ∨ s = CVStatus.noteOn ∨ s = CVStatus.polyPressure ∨ s = CVStatus.controlChange
        ∨ s = CVStatus.pitchBend ∨ s = SystemStatus.songPosition then 3
    else if s = CVStatus.programChange ∨ s = CVStatus.channelPressure then 2
    else 0
  else if p.type = PacketType.data then
    let s := p.status &&& 0xF0
    if s = Format.complete.status ∨ s = Format.start.status ∨ s = Format.fin.status ∨ s = Format.cont.status then
      if p.status &&& 0x0F ≤ 6 then (p.status &&& 0x0F).toNat else 0
    else 0
  else 0

/-- `result[result_bytes++] = byte` for the buffer `uint8_t result[8]` of `to_midi1_byte_stream`, of which the first
`result_bytes` are `out`: writing behind the eighth byte is a fault (src/midi1_byte_stream.cpp 375, 384, 387, 390). -/
def writeResult (out : List Byte) (byte : Byte) : Except Fault (List Byte) :=
  if out.length < 8 then .ok (out ++ [byte]) else .error .outOfBounds

/-- The loops of `to_midi1_byte_stream` appending the bytes `from`, …, `from + n - 1` of the packet
(src/midi1_byte_stream.cpp 374-375, 386-387). -/
def copyBytes (p : Packet) (out : List Byte) (fro : Nat) : Nat → Except Fault (List Byte)
  | 0 => .ok out
  | n + 1 => do
    let b ← p.getByte fro
    let out ← writeResult out b
    copyBytes p out (fro + 1) n

/-- `to_midi1_byte_stream(p, result)` (src/midi1_byte_stream.cpp 362-398): the bytes written; the returned size is their
number. -/
def toMidi1ByteStream (p : Packet) : Except Fault (List Byte) := do
  let n := midi1ByteStreamSize p
  if p.type = PacketType.system ∨ p.type = PacketType.midi1ChannelVoice then copyBytes p [] 1 n
  else if p.type = PacketType.data then
    if isSysex7Packet p then
      let status := p.status &&& 0xF0
      let out ← if status = Format.complete.status ∨ status = Format.start.status then writeResult [] 0xF0 else pure []
      let out ← copyBytes p out 2 n
      if status = Format.complete.status ∨ status = Format.fin.status then writeResult out 0xF7 else pure out
    else return []
  else return []

/-- `from_midi1_byte_stream(status, d1, d2)` (inc/midi/midi1_byte_stream.h 203-233). -/
def fromMidi1ByteStream (status d1 d2 : Byte) : Packet :=
  let packet (type : Byte) : Packet :=
    { w0 := (type.setWidth 32 <<< 28) ||| (status.setWidth 32 <<< 16) ||| (d1.setWidth 32 <<< 8) ||| d2.setWidth 32 }
  if status &&& 0xF0 = 0xF0 then
    if status = 0xF0 ∨ status = 0xF7 ∨ status = 0xF4 ∨ status = 0xF5 ∨ status = 0xF9 ∨ status = 0xFD then {}
    else packet PacketType.system
  else if status < 0x80 then {}
  else packet PacketType.midi1ChannelVoice

end Midi
