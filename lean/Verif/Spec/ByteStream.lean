import Verif.Model.ByteStream
import Verif.Spec.Collector

/-!
# The MIDI 1 byte stream grammar

A reference for what a MIDI 1 byte stream means, on lists of bytes and natural numbers: no packet is assembled, patched
or kept between bytes.
-/

namespace Midi.Spec

/-- A 32 bit word from its four bytes, most significant one first. -/
def wordOfBytes (a b c d : Byte) : Word :=
  BitVec.ofNat 32 (a.toNat * 2 ^ 24 + b.toNat * 2 ^ 16 + c.toNat * 2 ^ 8 + d.toNat)

/-- The packet starting with the bytes `l`, all others zero. -/
def packetOf (l : List Byte) : Packet :=
  ⟨wordOfBytes (l.getD 0 0) (l.getD 1 0) (l.getD 2 0) (l.getD 3 0),
   wordOfBytes (l.getD 4 0) (l.getD 5 0) (l.getD 6 0) (l.getD 7 0),
   wordOfBytes (l.getD 8 0) (l.getD 9 0) (l.getD 10 0) (l.getD 11 0),
   wordOfBytes (l.getD 12 0) (l.getD 13 0) (l.getD 14 0) (l.getD 15 0)⟩

/-- The number of data bytes that follow a status byte: two for note off, note on, poly pressure, control change, pitch
bend and song position, one for program change, channel pressure, quarter frame and song select. -/
def dataBytes (status : Byte) : Nat :=
  if status.toNat / 16 ∈ [8, 9, 10, 11, 14] ∨ status = 0xF2 then 2
  else if status.toNat / 16 ∈ [12, 13] ∨ status = 0xF1 ∨ status = 0xF3 then 1
  else 0

/-- The packet for a channel voice message (packet type 2) or a system message (packet type 1) in a group. -/
def shortMessage (group status : Byte) (data : List Byte) : Packet :=
  packetOf (((if status < 0xF0 then 0x20 else 0x10) + group) :: status :: data)

/-- The 7 bit sysex packet (packet type 3) with given group, format (0 complete, 1 start, 2 continue, 3 end) and payload:
the second byte is made of the format and the number of payload bytes. -/
def sysexPacket (group : Byte) (format : Nat) (payload : List Byte) : Packet :=
  packetOf ((0x30 + group) :: BitVec.ofNat 8 (16 * format + payload.length) :: payload)

/-- What the receiver of a byte stream remembers. -/
inductive StreamState where
  /-- No status in effect: data bytes are ignored. -/
  | idle
  /-- A status byte was received (with this group set), followed by some of its data bytes. -/
  | message (group status : Byte) (data : List Byte)
  /-- Sysex start was received, followed by the data bytes `data`. `group` is the group for the next sysex packet;
  `wanted` tells if callbacks were enabled when sysex start was received. -/
  | sysex (group : Byte) (wanted : Bool) (data : List Byte)
deriving DecidableEq, Repr

/-- The settings of a receiver: group, presence of a sysex callback, callbacks enabled. -/
structure Settings where
  group : Byte
  sysexCallback : Bool
  enabled : Bool
deriving DecidableEq, Repr

/-- A sysex payload that contains a complete manufacturer id: one byte, or three if the first is zero. -/
def HasId (payload : List Byte) : Prop := payload.head? ≠ some 0 ∧ payload ≠ [] ∨ 3 ≤ payload.length

instance (payload : List Byte) : Decidable (HasId payload) := inferInstanceAs (Decidable (_ ∨ _))

/-- The events caused by a byte and the state afterwards, if callbacks are enabled.

* A real time byte (F8 .. FF) causes a real time packet, except for the undefined F9 and FD. Nothing else changes.
* A data byte (00 .. 7F) completes the message in progress or not. The status of a channel voice message stays in effect
  (running status). In sysex without callback every six bytes give a start or continue packet.
* F7 ends sysex. Without callback, the bytes not yet sent go into an end packet, or a complete packet if there was no start
  packet; there is no packet for sysex without any data. With callback, the message is delivered if it has a manufacturer id.
  Outside sysex F7 cancels running status.
* Any other status byte starts a new message. F0 starts sysex, F6 (tune request) has no data, and the undefined F4 and F5
  cancel running status. -/
def byteEvents (c : Settings) (st : StreamState) (b : Byte) : StreamState × List Event :=
  if b ≥ 0xF8 then (st, if b = 0xF9 ∨ b = 0xFD then [] else [.packet (shortMessage c.group b [])])
  else if b < 0x80 then
    match st with
    | .idle => (.idle, [])
    | .message g s d =>
      if d.length + 1 = dataBytes s then
        (if s < 0xF0 then .message g s [] else .idle, [.packet (shortMessage g s (d ++ [b]))])
      else (.message g s (d ++ [b]), [])
    | .sysex g w d =>
      if c.sysexCallback = false ∧ (d.length + 1) % 6 = 0 then
        (.sysex c.group w (d ++ [b]),
          [.packet (sysexPacket g (if d.length < 6 then 1 else 2) ((d ++ [b]).drop (d.length + 1 - 6)))])
      else (.sysex g w (d ++ [b]), [])
  else if b = 0xF7 then
    match st with
    | .sysex g w d =>
      (.idle,
        if c.sysexCallback then if w ∧ HasId d then [.sysex (message7 d)] else []
        else if d = [] then []
        else if d.length < 6 then [.packet (sysexPacket g 0 d)]
        else [.packet (sysexPacket g 3 (d.drop (d.length / 6 * 6)))])
    | _ => (.idle, [])
  else if b = 0xF0 then (.sysex c.group c.enabled [], [])
  else if b = 0xF6 then (.idle, [.packet (shortMessage c.group b [])])
  else if b = 0xF4 ∨ b = 0xF5 then (.idle, [])
  else (.message c.group b [], [])

/-- One byte: while callbacks are disabled there are no events. -/
def stepByte (c : Settings) (st : StreamState) (b : Byte) : StreamState × List Event :=
  ((byteEvents c st b).1, if c.enabled then (byteEvents c st b).2 else [])

/-- A sequence of bytes. -/
def stepBytes (c : Settings) (st : StreamState) : List Byte → StreamState × List Event
  | [] => (st, [])
  | b :: bs =>
    let r := stepByte c st b
    let q := stepBytes c r.1 bs
    (q.1, r.2 ++ q.2)

/-- One operation on a receiver. -/
def stepOp (c : Settings) (st : StreamState) : Parser.Op → Settings × StreamState × List Event
  | .feed bytes => (c, stepBytes c st bytes)
  | .setGroup g => ({ c with group := g }, st, [])
  | .enable on => ({ c with enabled := on }, st, [])
  | .reset => (c, .idle, [])

/-- The events caused by a sequence of operations. -/
def opEvents (c : Settings) (st : StreamState) : List Parser.Op → List Event
  | [] => []
  | o :: os =>
    let r := stepOp c st o
    r.2.2 ++ opEvents r.1 r.2.1 os

/-- Is the event a system real time packet: packet type 1 and status F8 or above. -/
def isRealTime : Event → Bool
  | .packet p => decide ((p.byteAt 0).toNat / 16 = 1) && decide (p.byteAt 1 ≥ 0xF8)
  | .sysex _ => false

/-- Groups are set to values below 16 only. -/
def ValidGroups (ops : List Parser.Op) : Prop := ∀ g, Parser.Op.setGroup g ∈ ops → g < 16

/-- The group a parser starts with, and all groups set later. -/
def groupsIn (g : Byte) (ops : List Parser.Op) : List Byte :=
  g :: ops.filterMap fun
    | .setGroup h => some h
    | _ => none

/-- Parsers that can occur: created with a group below 16, after any sequence of operations (with groups below 16). -/
def Reached (p : Parser) : Prop :=
  ∃ g cb on ops es, g < 16 ∧ ValidGroups ops ∧ (Parser.new g cb on).run ops = .ok (p, es)

/-- Two parsers that cannot be told apart: every sequence of operations causes the same events. -/
def Alike (p q : Parser) : Prop :=
  ∀ ops, ValidGroups ops → ∃ p' q' es, p.run ops = .ok (p', es) ∧ q.run ops = .ok (q', es)

/-- The status bytes of system messages (other than sysex) that exist. -/
def systemStatusBytes : List Byte := [0xF1, 0xF2, 0xF3, 0xF6, 0xF8, 0xFA, 0xFB, 0xFC, 0xFE, 0xFF]

/-- Is the packet a system message (other than sysex) or a MIDI 1 channel voice message with an existing status byte. -/
def IsShort (p : Packet) : Prop :=
  (p.byteAt 0).toNat / 16 = 1 ∧ p.byteAt 1 ∈ systemStatusBytes ∨
    (p.byteAt 0).toNat / 16 = 2 ∧ 0x80 ≤ p.byteAt 1 ∧ p.byteAt 1 < 0xF0

instance (p : Packet) : Decidable (IsShort p) := inferInstanceAs (Decidable (_ ∨ _))

/-- A well formed packet of the MIDI 1 protocol in one of some groups: a system message that is not sysex, a channel voice
message or a sysex7 packet, with 7 bit data bytes, and with zero in every byte that is not used. -/
structure WellFormed1 (groups : List Byte) (p : Packet) : Prop where
  group : ∃ g ∈ groups, groupOf p = g.toNat
  kind : IsShort p ∨ IsSysex7 p
  data : ∀ i, 2 ≤ i → i < 16 → p.byteAt i < 0x80
  unused : ∀ i, i < 16 →
    2 + (if (p.byteAt 0).toNat / 16 = 3 then (payload7 p).length else dataBytes (p.byteAt 1)) ≤ i → p.byteAt i = 0

/-- A sysex message with 7 bit data and manufacturer id. -/
def Is7Bit (s : Sysex) : Prop :=
  (∀ b ∈ s.data, b < 0x80) ∧ s.manufacturerID.toNat < 2 ^ 23 ∧ s.manufacturerID.toNat / 256 % 256 < 128 ∧
    s.manufacturerID.toNat % 256 < 128

/-- The MIDI 1 byte stream for a packet: status and data bytes of a system or channel voice message; the payload of a sysex7
packet, with F0 in front if it is the first packet of a message and with F7 behind if it is the last one; nothing for any
other packet. -/
def streamBytes (p : Packet) : List Byte :=
  if IsShort p then p.byteAt 1 :: [p.byteAt 2, p.byteAt 3].take (dataBytes (p.byteAt 1))
  else if IsSysex7 p then
    (if formatCode p ≤ 1 then [0xF0] else []) ++ payload7 p ++ (if formatCode p = 0 ∨ formatCode p = 3 then [0xF7] else [])
  else []

/-- The bytes of one complete message: status byte and data bytes of a system or channel voice message, or sysex with at least
one byte of data. -/
inductive Message1 : List Byte → Prop where
  | short (s : Byte) (d : List Byte) (hs : s ∈ systemStatusBytes ∨ 0x80 ≤ s ∧ s < 0xF0) (hl : d.length = dataBytes s)
      (hd : ∀ b ∈ d, b < 0x80) : Message1 (s :: d)
  | sysex (d : List Byte) (h0 : d ≠ []) (hd : ∀ b ∈ d, b < 0x80) : Message1 (0xF0 :: (d ++ [0xF7]))

/-- The packets among some events. -/
def packetsOf (es : List Event) : List Packet :=
  es.filterMap fun
    | .packet p => some p
    | .sysex _ => none

/-- The sysex messages among some events. -/
def sysexOf (es : List Event) : List Sysex :=
  es.filterMap fun
    | .packet _ => none
    | .sysex s => some s

/-- The payloads of the sysex messages in a byte stream that are ended by F7, without those interrupted by another status
byte; real time bytes do not count. `cur` is the payload so far of the message in progress, if any. -/
def sysexPayloads (cur : Option (List Byte)) : List Byte → List (List Byte)
  | [] => []
  | b :: bs =>
    if b ≥ 0xF8 then sysexPayloads cur bs
    else if b = 0xF0 then sysexPayloads (some []) bs
    else if b = 0xF7 then
      match cur with
      | some d => d :: sysexPayloads none bs
      | none => sysexPayloads none bs
    else if b ≥ 0x80 then sysexPayloads none bs
    else
      match cur with
      | some d => sysexPayloads (some (d ++ [b])) bs
      | none => sysexPayloads none bs

end Midi.Spec
