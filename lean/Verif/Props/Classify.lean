import Verif.Props.ByteStreamConvert
import Verif.Props.FlexData

/-!
# C54: the classification of packets
-/

namespace Midi
open Spec

/-- The message type of a packet, the first four bits. -/
def Spec.messageType (p : Packet) : Nat := (p.byteAt 0).toNat / 16

theorem type_beq (p : Packet) (t : Byte) : (p.type == t) = decide (messageType p = t.toNat) := by
  rw [Bool.eq_iff_iff, type_beq_iff, decide_eq_true_eq]; rfl

/-- C54: the member and free predicates classify packets by their message type: 0 utility, 1 system, 2 and 4 channel voice
of MIDI 1 and MIDI 2, 3 and 5 data with 7 and 8 bits, 13 flex data, 15 stream. -/
theorem C54_message_types (p : Packet) :
    p.isUtility = decide (messageType p = 0) ∧
    p.isSystem = decide (messageType p = 1) ∧ isSystemMessage p = decide (messageType p = 1) ∧
    p.isChannelVoice = decide (messageType p = 2 ∨ messageType p = 4) ∧
    isMidi1CV p = decide (messageType p = 2) ∧ isMidi2CV p = decide (messageType p = 4) ∧
    p.isData = decide (messageType p = 3 ∨ messageType p = 5) ∧
    isDataMessage p = decide (messageType p = 3) ∧ isExtendedDataMessage p = decide (messageType p = 5) ∧
    isFlexDataMessage p = decide (messageType p = 13) ∧ isStreamMessage p = decide (messageType p = 15) ∧
    p.hasChannel = decide (messageType p = 2 ∨ messageType p = 4 ∨ messageType p = 13) := by
  refine ⟨type_beq p _, type_beq p _, type_beq p _, ?_, type_beq p _, type_beq p _, ?_, type_beq p _, type_beq p _,
    type_beq p _, type_beq p _, ?_⟩
  · rw [Packet.isChannelVoice, type_beq, type_beq, ← Bool.decide_or]; rfl
  · rw [Packet.isData, type_beq, type_beq, ← Bool.decide_or]; rfl
  · rw [Packet.hasChannel, type_beq, type_beq, type_beq, ← Bool.decide_or, ← Bool.decide_or]
    exact decide_eq_decide.2 or_assoc

/-- C54: `is_midi1_protocol_message` accepts exactly system messages (other than sysex) and MIDI 1 channel voice messages with
an existing status byte. -/
theorem C54_midi1_protocol (p : Packet) : p.isMidi1Protocol = true ↔ IsShort p := by
  unfold Packet.isMidi1Protocol IsShort
  by_cases h1 : (p.byteAt 0).toNat / 16 = 1
  · rw [if_pos ((type_nat p PacketType.system (by decide)).2 h1), Packet.status_eq]
    rw [List.contains_iff_mem]
    exact ⟨fun h => Or.inl ⟨h1, h⟩, fun h => h.elim (·.2) fun h => absurd h.1 (by omega)⟩
  · rw [if_neg (fun e => h1 ((type_nat p PacketType.system (by decide)).1 e))]
    by_cases h2 : (p.byteAt 0).toNat / 16 = 2
    · rw [if_pos ((type_nat p PacketType.midi1ChannelVoice (by decide)).2 h2), Packet.status_eq]
      rw [Bool.and_eq_true, decide_eq_true_eq, decide_eq_true_eq]
      exact ⟨fun h => Or.inr ⟨h2, h⟩, fun h => h.elim (fun h => absurd h.1 (by omega)) (·.2)⟩
    · rw [if_neg (fun e => h2 ((type_nat p PacketType.midi1ChannelVoice (by decide)).1 e))]
      simp [h1, h2]

/-- C54: a system or MIDI 1 channel voice packet is a MIDI 1 protocol message exactly if the conversion to a byte stream
produces bytes. -/
theorem C54_midi1_protocol_has_bytes (p : Packet) (h : messageType p = 1 ∨ messageType p = 2) :
    p.isMidi1Protocol = true ↔ toMidi1ByteStream p ≠ .ok [] := by
  rw [C54_midi1_protocol, (C33_to_byte_stream p).1]
  have hn : ¬ IsSysex7 p := fun h7 => by
    have : messageType p = 3 := h7.1
    omega
  unfold streamBytes
  by_cases hs : IsShort p
  · simp [hs]
  · simp [hs, hn]

example : IsShort ⟨0x10F80000, 0, 0, 0⟩ ∧ ¬ IsShort ⟨0x10F90000, 0, 0, 0⟩ ∧ IsShort ⟨0x2F803C00, 0, 0, 0⟩ ∧
    ¬ IsShort ⟨0x40803C00, 0, 0, 0⟩ := by decide

end Midi
