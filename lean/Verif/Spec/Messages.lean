import Verif.Model.Packet

/-!
# Specification: layout of one and two word messages

The bit fields of the UMP specification, written as sums of powers of two, independent of the model's accessors.
-/

namespace Midi

/-- A MIDI 1 channel voice message (UMP message type 2): type, group, opcode and channel nibbles, two data bytes. -/
def Midi1Layout (p : Packet) (group opcode channel data1 data2 : Nat) : Prop :=
  p.w0.toNat = 2 * 2 ^ 28 + group * 2 ^ 24 + opcode * 2 ^ 20 + channel * 2 ^ 16 + data1 * 2 ^ 8 + data2 ∧
  p.w1 = 0 ∧ p.w2 = 0 ∧ p.w3 = 0

/-- A MIDI 2 channel voice message (UMP message type 4): type, group, opcode and channel nibbles, two index bytes, 32
bit data. -/
def Midi2Layout (p : Packet) (group opcode channel index1 index2 data : Nat) : Prop :=
  p.w0.toNat = 4 * 2 ^ 28 + group * 2 ^ 24 + opcode * 2 ^ 20 + channel * 2 ^ 16 + index1 * 2 ^ 8 + index2 ∧
  p.w1.toNat = data ∧ p.w2 = 0 ∧ p.w3 = 0

/-- A system message (UMP message type 1): type and group nibbles, status byte, two data bytes. -/
def SystemLayout (p : Packet) (group status data1 data2 : Nat) : Prop :=
  p.w0.toNat = 1 * 2 ^ 28 + group * 2 ^ 24 + status * 2 ^ 16 + data1 * 2 ^ 8 + data2 ∧
  p.w1 = 0 ∧ p.w2 = 0 ∧ p.w3 = 0

/-- A utility message (UMP message type 0, no group): status byte, 16 bit payload. -/
def UtilityLayout (p : Packet) (status payload : Nat) : Prop :=
  p.w0.toNat = status * 2 ^ 16 + payload ∧ p.w1 = 0 ∧ p.w2 = 0 ∧ p.w3 = 0

end Midi
