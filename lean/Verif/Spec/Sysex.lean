import Verif.Model.Sysex

/-!
# Specification vocabulary for system exclusive messages

Independent of how the library computes things: everything is said in terms of the sixteen bytes of a packet and of
natural numbers.
-/

namespace Midi.Spec

/-- The high nibble of the second byte of a sysex packet: 0 complete, 1 start, 2 continue, 3 end. -/
def formatCode (p : Packet) : Nat := (p.byteAt 1).toNat / 16

/-- The payload of a packet with 7 bit sysex: the low nibble of the second byte is the number of payload bytes, which
start at the third byte. -/
def payload7 (p : Packet) : List Byte := (List.range ((p.byteAt 1).toNat % 16)).map fun i => p.byteAt (2 + i)

/-- The payload of a packet with 8 bit sysex: the low nibble of the second byte is one (for the stream id, the third
byte) plus the number of payload bytes, which start at the fourth byte. -/
def payload8 (p : Packet) : List Byte := (List.range ((p.byteAt 1).toNat % 16 - 1)).map fun i => p.byteAt (3 + i)

/-- The stream id of a packet with 8 bit sysex. -/
def stream8 (p : Packet) : Byte := p.byteAt 2

/-- A message is sent in one complete packet, or in a start packet, any number of continue packets and an end packet. -/
def Framed (codes : List Nat) : Prop := codes = [0] ∨ ∃ n, codes = 1 :: (List.replicate n 2 ++ [3])

/-- `p` is a well formed 7 bit sysex packet: packet type 3, one of the four formats and at most six payload bytes. -/
def IsSysex7 (p : Packet) : Prop :=
  (p.byteAt 0).toNat / 16 = 3 ∧ (p.byteAt 1).toNat / 16 ≤ 3 ∧ (p.byteAt 1).toNat % 16 ≤ 6

/-- `p` is a well formed 8 bit sysex packet: packet type 5, one of the four formats, a stream id and at most thirteen
payload bytes. -/
def IsSysex8 (p : Packet) : Prop :=
  (p.byteAt 0).toNat / 16 = 5 ∧ (p.byteAt 1).toNat / 16 ≤ 3 ∧ 1 ≤ (p.byteAt 1).toNat % 16 ∧ (p.byteAt 1).toNat % 16 ≤ 14

/-- The group of a packet, the low nibble of its first byte. -/
def groupOf (p : Packet) : Nat := (p.byteAt 0).toNat % 16

instance (p : Packet) : Decidable (IsSysex7 p) := inferInstanceAs (Decidable (_ ∧ _))
instance (p : Packet) : Decidable (IsSysex8 p) := inferInstanceAs (Decidable (_ ∧ _))

/-- A manufacturer id of one byte, stored as `0xAA0000` with `AA` in 01 .. 7F. -/
def OneByteId (id : Word) : Prop := id.toNat % 65536 = 0 ∧ 0 < id.toNat / 65536 ∧ id.toNat / 65536 < 128

/-- A manufacturer id of three bytes, of which the first one is zero, stored as `0x00BBCC` with `BB`, `CC` in 00 .. 7F
and not both zero. -/
def ThreeByteId (id : Word) : Prop := 0 < id.toNat ∧ id.toNat / 256 < 128 ∧ id.toNat % 256 < 128

/-- A manufacturer id that exists in MIDI. -/
def GenuineId (id : Word) : Prop := OneByteId id ∨ ThreeByteId id

instance (id : Word) : Decidable (OneByteId id) := inferInstanceAs (Decidable (_ ∧ _))
instance (id : Word) : Decidable (ThreeByteId id) := inferInstanceAs (Decidable (_ ∧ _))
instance (id : Word) : Decidable (GenuineId id) := inferInstanceAs (Decidable (_ ∨ _))

/-- The bytes of a genuine manufacturer id in a MIDI byte stream or 7 bit sysex packets. -/
def idBytes7 (id : Word) : List Byte :=
  if id.toNat / 65536 = 0 then [0, BitVec.ofNat 8 (id.toNat / 256), BitVec.ofNat 8 (id.toNat % 256)]
  else [BitVec.ofNat 8 (id.toNat / 65536)]

/-- The two bytes of a genuine manufacturer id in 8 bit sysex packets; two zero bytes for id 0. -/
def idBytes8 (id : Word) : List Byte :=
  if id.toNat % 65536 = 0 then [0, BitVec.ofNat 8 (id.toNat / 65536)]
  else [BitVec.ofNat 8 (128 + id.toNat / 256), BitVec.ofNat 8 (id.toNat % 256)]

end Midi.Spec
