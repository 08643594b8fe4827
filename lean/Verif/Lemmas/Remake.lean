import Verif.Lemmas.Messages
import Verif.Props.Interchange

/-!
# Helper lemmas: comparing a packet with one made by a factory
-/

namespace Midi
open Packet

theorem eqv_one_word {p q : Packet} (h : p.size = 1) : p.eqv q = true ↔ p.w0 = q.w0 := by
  rw [eqv_iff, h]
  exact ⟨fun k => k 0 (by omega), fun k i hi => by obtain rfl : i = 0 := by omega
                                                   exact k⟩

theorem eqv_two_words {p q : Packet} (h : p.size = 2) : p.eqv q = true ↔ p.w0 = q.w0 ∧ p.w1 = q.w1 := by
  rw [eqv_iff, h]
  refine ⟨fun k => ⟨k 0 (by omega), k 1 (by omega)⟩, fun k i hi => ?_⟩
  obtain rfl | rfl : i = 0 ∨ i = 1 := by omega
  · exact k.1
  · exact k.2

theorem eqv_four_words {p q : Packet} (h : p.size = 4) : p.eqv q = true ↔ p = q := by
  constructor
  · intro k; exact (eqv_words k).2.2 (by omega)
  · rintro rfl; exact C03_equivalence.1 p

theorem eq_and7F {b : Byte} : b = b &&& 0x7F ↔ b < 0x80 := by revert b; decide +kernel
theorem and7F_and7F (b : Byte) : b &&& 0x7F &&& 0x7F = b &&& 0x7F := by bits

theorem group_and (p : Packet) : p.group &&& 0x0F = p.group := by rw [group_eq]; bits

/-- A packet of MIDI 1 type against the four bytes of a made message. -/
theorem midi1_remake {p : Packet} (ht : p.type = 2) (s a b : Byte) :
    p.eqv (midi1Message p.group s a b) = true ↔ p.status = s ∧ p.byte3 = a ∧ p.byte4 = b := by
  rw [eqv_one_word (size_of_type ht), midi1Message_eq, w0_eq p, wordOf_inj, ht, group_and]
  simp

theorem system_remake {p : Packet} (ht : p.type = 1) (s a b : Byte) :
    p.eqv (makeSystem p.group s a b) = true ↔ p.status = s ∧ p.byte3 = a ∧ p.byte4 = b := by
  rw [eqv_one_word (size_of_type ht), makeSystem_eq, w0_eq p, wordOf_inj, ht, group_and]
  simp

theorem midi2_remake {p : Packet} (ht : p.type = 4) (s a b : Byte) (d : Word) :
    p.eqv (midi2Message p.group s (p.status &&& 0x0F) a b d) = true ↔
      p.status &&& 0xF0 = s &&& 0xF0 ∧ p.byte3 = a ∧ p.byte4 = b ∧ p.w1 = d := by
  rw [eqv_two_words (size_of_type ht), midi2Message_eq, w0_eq p, wordOf_inj, ht, group_and]
  have e : (p.status = (s &&& 0xF0) ||| (p.status &&& 0x0F &&& 0x0F)) ↔ p.status &&& 0xF0 = s &&& 0xF0 := by
    generalize p.status = x
    constructor
    · intro h
      rw [h]; bits
    · intro h; rw [← h]; bits
  rw [e]
  simp only [true_and, and_assoc]

theorem hi_of_div {b : Byte} {n : Nat} (h : b.toNat / 16 = n) : b &&& 0xF0 = BitVec.ofNat 8 (16 * n) := by
  have : ∀ b : Byte, b &&& 0xF0 = BitVec.ofNat 8 (16 * (b.toNat / 16)) := by decide +kernel
  rw [this b, h]

end Midi
