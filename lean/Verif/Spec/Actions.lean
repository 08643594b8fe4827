import Verif.Model.Processor
import Verif.Spec.ByteStream
import Verif.Spec.Translation

/-!
# Specification: what is to be played

What a program that plays the messages it receives, as shown in the documentation, is to do for a message. The actions are those of
the documentation (`Action`); opcodes are the upper four bits of a status byte.
-/

namespace Midi.Spec

/-- The pitch of a note without pitch of its own, with 9 fractional bits. -/
def plainPitch (note : Nat) : U16 := BitVec.ofNat 16 (note * 512)

/-- What to play for a MIDI 1 message with the two data bytes `d1` and `d2`, in the resolution of MIDI 2. A note on with velocity zero
ends the note with the middle velocity. -/
def midi1Action (opcode d1 d2 : Nat) : Action :=
  match opcode with
  | 0x8 => .releaseVoice (BitVec.ofNat 8 d1) (BitVec.ofNat 16 (up7to16 d2))
  | 0x9 =>
    if d2 = 0 then .releaseVoice (BitVec.ofNat 8 d1) 0x8000
    else .allocateVoice (BitVec.ofNat 8 d1) (BitVec.ofNat 16 (up7to16 d2)) (plainPitch d1)
  | 0xA => .voicePressure (BitVec.ofNat 8 d1) (BitVec.ofNat 32 (up7to32 d2))
  | 0xB => .channelController (BitVec.ofNat 8 d1) (BitVec.ofNat 32 (up7to32 d2))
  | 0xE => .channelPitchBend (BitVec.ofNat 32 (up14to32 (d1 + 128 * d2)))
  | _ => .none

/-- What to play for a MIDI 2 message with the two index bytes `i1` and `i2` and the 32 bit data word: the first index is a note
number or a controller of 7 bits, the second one the type of the attribute of a note (3 for its pitch) or a per note controller. -/
def midi2Action (opcode i1 i2 data : Nat) : Action :=
  let nr := BitVec.ofNat 8 (i1 % 128)
  match opcode with
  | 0x0 => .voiceController nr (BitVec.ofNat 8 i2) (BitVec.ofNat 32 data)
  | 0x6 => .voicePitchBend nr (BitVec.ofNat 32 data)
  | 0x8 => .releaseVoice nr (BitVec.ofNat 16 (data / 2 ^ 16))
  | 0x9 => .allocateVoice nr (BitVec.ofNat 16 (data / 2 ^ 16))
      (if i2 = 3 then BitVec.ofNat 16 (data % 2 ^ 16) else plainPitch (i1 % 128))
  | 0xA => .voicePressure nr (BitVec.ofNat 32 data)
  | 0xB => .channelController nr (BitVec.ofNat 32 data)
  | 0xE => .channelPitchBend (BitVec.ofNat 32 data)
  | _ => .none

/-- What to play for a packet: the first byte holds the message type, the upper four bits of the second one the opcode. -/
def played (p : Packet) : Action :=
  match (p.byteAt 0).toNat / 16 with
  | 2 => midi1Action ((p.byteAt 1).toNat / 16) (p.byteAt 2).toNat (p.byteAt 3).toNat
  | 4 => midi2Action ((p.byteAt 1).toNat / 16) (p.byteAt 2).toNat (p.byteAt 3).toNat (p.word 1).toNat
  | _ => .none

/-- An action in the resolution of MIDI 1: values are reduced to 7 bits, pitch bend to 14 bits, and scaled up again; a note
has at least the smallest velocity above zero. There are no pitches of notes other than those of their numbers, and no
controllers and pitch bends of notes. -/
def coarse : Action → Action
  | .allocateVoice n v _ => .allocateVoice n (BitVec.ofNat 16 (up7to16 (max 1 (v.toNat / 2 ^ 9)))) (plainPitch n.toNat)
  | .releaseVoice n v => .releaseVoice n (BitVec.ofNat 16 (up7to16 (v.toNat / 2 ^ 9)))
  | .voicePressure n v => .voicePressure n (BitVec.ofNat 32 (up7to32 (v.toNat / 2 ^ 25)))
  | .channelController c v => .channelController c (BitVec.ofNat 32 (up7to32 (v.toNat / 2 ^ 25)))
  | .channelPitchBend v => .channelPitchBend (BitVec.ofNat 32 (up14to32 (v.toNat / 2 ^ 18)))
  | _ => .none

/-- A MIDI 2 channel voice message that can be sent to a MIDI 1 device. -/
def hasMidi1 (q : Packet) : Bool :=
  (midi1DataOfMidi2 ((q.byteAt 1).toNat / 16) ((q.byteAt 2).toNat % 128) ((q.byteAt 3).toNat % 128) (q.word 1).toNat).isSome

/-- A part of a byte stream: a status byte and the data bytes of one message, or in running status of several ones. -/
structure Block where
  status : Byte
  data : List (List Byte)

/-- The messages are channel voice messages or a single system message, and complete. -/
def Block.Complete (b : Block) : Prop :=
  (0x80 ≤ b.status ∧ b.status < 0xF0 ∧ b.data ≠ [] ∨ b.status ∈ systemStatusBytes ∧ b.data.length = 1) ∧
    ∀ d ∈ b.data, d.length = dataBytes b.status ∧ ∀ x ∈ d, x < 0x80

instance (b : Block) : Decidable b.Complete := by unfold Block.Complete; infer_instance

/-- The bytes: the status byte once. -/
def Block.bytes (b : Block) : List Byte := b.status :: b.data.flatten

/-- What to play for the messages. -/
def Block.actions (b : Block) : List Action :=
  b.data.map fun d => midi1Action (b.status.toNat / 16) (d.getD 0 0).toNat (d.getD 1 0).toNat

end Midi.Spec
