import Verif.Model.Basic

/-!
# Specification: which control changes have no counterpart in the other protocol
-/

namespace Midi

/-- Bank select MSB/LSB, data entry MSB/LSB, high resolution velocity prefix, NRPN LSB/MSB, RPN LSB/MSB: controllers
which are part of multi message sequences and therefore not translated one by one. -/
def sequenceControllers : List Nat := [0, 32, 6, 38, 88, 98, 99, 100, 101]

/-- The two data bytes of the MIDI 1 message for a MIDI 2 channel voice message, from the opcode, the 7 bit index
bytes and the 32 bit data word: velocities and controller values keep their upper 7 bits, pitch bend its upper 14
bits; a Note On never gets velocity zero; notes with attributes, program changes with bank, sequence controllers and
the per note and registered or assignable controller messages have no counterpart. -/
def midi1DataOfMidi2 (opcode index1 index2 data : Nat) : Option (Nat × Nat) :=
  match opcode with
  | 0x8 => if index2 = 0 then some (index1, data / 2 ^ 25) else none
  | 0x9 => if index2 = 0 then some (index1, max 1 (data / 2 ^ 25)) else none
  | 0xA => some (index1, data / 2 ^ 25)
  | 0xB => if index1 ∈ sequenceControllers then none else some (index1, data / 2 ^ 25)
  | 0xC => if index2 % 2 = 0 then some (data / 2 ^ 24 % 128, 0) else none
  | 0xD => some (data / 2 ^ 25, 0)
  | 0xE => some (data / 2 ^ 18 % 128, data / 2 ^ 25)
  | _ => none

/-! ## From MIDI 1 to MIDI 2

Values are scaled such that the smallest, the middle and the largest value remain that (MIDI 2.0 bit scaling, M2-115-U): up to
the middle the value is shifted; above, the lower bits of the value are repeated behind it. -/

/-- A 7 bit velocity in 16 bits. -/
def up7to16 (v : Nat) : Nat := v * 2 ^ 9 + if v ≤ 64 then 0 else v % 64 * 2 ^ 3 + v % 64 / 2 ^ 3

/-- A 7 bit value in 32 bits. -/
def up7to32 (v : Nat) : Nat :=
  v * 2 ^ 25 + if v ≤ 64 then 0 else v % 64 * 2 ^ 19 + v % 64 * 2 ^ 13 + v % 64 * 2 ^ 7 + v % 64 * 2 + v % 64 / 2 ^ 5

/-- A 14 bit value in 32 bits. -/
def up14to32 (v : Nat) : Nat := v * 2 ^ 18 + if v ≤ 8192 then 0 else v % 8192 * 2 ^ 5 + v % 8192 / 2 ^ 8

/-- The opcode, the first index byte and the 32 bit data word of the MIDI 2 message for a MIDI 1 channel voice message with data
bytes `d1` and `d2`. A Note On with velocity zero becomes a Note Off with velocity 64. -/
def midi2DataOfMidi1 (opcode d1 d2 : Nat) : Option (Nat × Nat × Nat) :=
  match opcode with
  | 0x8 => some (0x8, d1, up7to16 d2 * 2 ^ 16)
  | 0x9 => if d2 = 0 then some (0x8, d1, 0x8000 * 2 ^ 16) else some (0x9, d1, up7to16 d2 * 2 ^ 16)
  | 0xA => some (0xA, d1, up7to32 d2)
  | 0xB => if d1 ∈ sequenceControllers then none else some (0xB, d1, up7to32 d2)
  | 0xC => some (0xC, 0, d1 * 2 ^ 24)
  | 0xD => some (0xD, 0, up7to32 d1)
  | 0xE => some (0xE, 0, up14to32 (d1 + 128 * d2))
  | _ => none

/-- The value a MIDI 1 channel voice message carries, other than a program change: 14 bits for pitch bend, 7 bits otherwise. -/
def midi1Value (opcode d1 d2 : Nat) : Nat :=
  match opcode with
  | 0xD => d1
  | 0xE => d1 + 128 * d2
  | _ => d2

/-- The number of values of the 32 bit data word of a MIDI 2 message that share a MIDI 1 value. -/
def midi1Step (opcode : Nat) : Nat := if opcode = 0xE then 2 ^ 18 else 2 ^ 25

end Midi
