import Verif.Lemmas.Packet

/-!
# Properties C01, C02, C03: byte access, header fields and equality of packets
-/

namespace Midi
open Packet

/-! ## C01 -/

/-- C01: `get_byte(4*w+k)` is the `k`-th most significant byte of data word `w`; positions from 16 on fail the
assertion. -/
theorem C01_get_byte_value (p : Packet) :
    (∀ w k, w < 4 → k < 4 →
      ∃ v : Byte, p.getByte (4 * w + k) = .ok v ∧ v.toNat = (p.word w).toNat / 256 ^ (3 - k) % 256) ∧
    (∀ b, 16 ≤ b → p.getByte b = .error .assertFailed) := by
  constructor
  · intro w k hw hk
    refine ⟨p.byteAt (4 * w + k), by simp [getByte]; omega, ?_⟩
    have e : (4 * w + k) / 4 = w ∧ (4 * w + k) % 4 = k := by omega
    rw [byteAt, e.1, e.2]
    have hm : ∀ n : Nat, n &&& 255 = n % 256 := fun n => Nat.and_two_pow_sub_one_eq_mod n 8
    interval_cases k <;> simp [BitVec.toNat_ushiftRight, hm, Nat.shiftRight_eq_div_pow]
  · intro b hb
    simp [getByte]; omega

/-- C01: after `set_byte(b, v)`, `get_byte(b)` is `v` and every other byte is unchanged, for all packets and positions
below 16. -/
theorem C01_set_byte (p : Packet) (b : Nat) (hb : b < 16) (v : Byte) :
    ∃ q, p.setByte b v = .ok q ∧ q.getByte b = .ok v ∧ ∀ c, c ≠ b → q.getByte c = p.getByte c := by
  refine ⟨p.putByte b v, by simp [setByte, hb], by simp [getByte, hb, byteAt_putByte_same], ?_⟩
  intro c hc
  by_cases h : c < 16
  · simp [getByte, h, byteAt_putByte_ne p hb h hc]
  · simp [getByte, h]

example := C01_set_byte ⟨0x23903C64, 1, 2, 3⟩ 7 (by decide) 0xA5

/-- C01: `set_byte_7bit(b, v)` stores `v` reduced modulo 128 and touches nothing else. -/
theorem C01_set_byte_7bit (p : Packet) (b : Nat) (hb : b < 16) (v : Byte) :
    ∃ q r, p.setByte7 b v = .ok q ∧ q.getByte b = .ok r ∧ r.toNat = v.toNat % 128 ∧
      ∀ c, c ≠ b → q.getByte c = p.getByte c := by
  obtain ⟨q, h1, h2, h3⟩ := C01_set_byte p b hb (v &&& 0x7F)
  refine ⟨q, _, h1, h2, ?_, h3⟩
  clear h1 h2 h3; revert v; decide +kernel

example := C01_set_byte_7bit ⟨0x23903C64, 1, 2, 3⟩ 7 (by decide) 0xA5

/-- C01: `get_byte_7bit(b)` is `get_byte(b)` modulo 128. -/
theorem C01_get_byte_7bit (p : Packet) (b : Nat) (hb : b < 16) :
    ∃ v r : Byte, p.getByte b = .ok v ∧ p.getByte7 b = .ok r ∧ r.toNat = v.toNat % 128 := by
  refine ⟨p.byteAt b, p.byteAt b &&& 0x7F, by simp [getByte, hb], by simp [getByte7, getByte, hb], ?_⟩
  generalize p.byteAt b = v
  revert v; decide +kernel

/-- C01: a packet is determined by its sixteen bytes. -/
theorem C01_bytes_determine_packet (p q : Packet) (h : ∀ b, b < 16 → p.getByte b = q.getByte b) : p = q := by
  apply ext_bytes
  intro b hb
  have := h b hb
  simpa [getByte, hb] using this

example : ∃ q, (⟨0x41900000, 0x12345678, 0, 0⟩ : Packet).setByte 5 0xAB = .ok q ∧ q.w1 = 0x12AB5678 :=
  ⟨_, rfl, by decide⟩

/-! ## C02 -/

/-- C02: `set_group(g)` with `g < 16` sets the group and leaves type and all other bytes unchanged; a larger group
fails the assertion. -/
theorem C02_set_group (p : Packet) (g : Byte) :
    (g < 16 → ∃ q, p.setGroup g = .ok q ∧ q.group = g ∧ q.type = p.type ∧
      ∀ b, 1 ≤ b → q.getByte b = p.getByte b) ∧
    (¬ g < 16 → p.setGroup g = .error .assertFailed) := by
  constructor
  · intro hg
    obtain ⟨g4, g5, g6, g7⟩ := lt16_bits hg
    refine ⟨_, setGroup_ok p hg, ?_, ?_, ?_⟩
    · simp only [group]; bits [g4, g5, g6, g7]
    · simp only [type]; bits [g4, g5, g6, g7]
    · intro b hb
      by_cases h : b < 16
      · simp only [getByte, h, if_true]
        congr 1
        interval_cases b <;>
          first | rfl | (simp only [byteAt, word]; bits [g4, g5, g6, g7])
      · simp [getByte, h]
  · exact setGroup_fail p

/-- C02: `set_type(t)` with `t < 16` sets the type and leaves group and all other bytes unchanged; a larger value
fails the assertion. -/
theorem C02_set_type (p : Packet) (t : Byte) :
    (t < 16 → ∃ q, p.setType t = .ok q ∧ q.type = t ∧ q.group = p.group ∧
      ∀ b, 1 ≤ b → q.getByte b = p.getByte b) ∧
    (¬ t < 16 → p.setType t = .error .assertFailed) := by
  constructor
  · intro ht
    obtain ⟨g4, g5, g6, g7⟩ := lt16_bits ht
    refine ⟨_, setType_ok p ht, ?_, ?_, ?_⟩
    · simp only [type]; bits [g4, g5, g6, g7]
    · simp only [group]; bits [g4, g5, g6, g7]
    · intro b hb
      by_cases h : b < 16
      · simp only [getByte, h, if_true]
        congr 1
        interval_cases b <;>
          first | rfl | (simp only [byteAt, word]; bits [g4, g5, g6, g7])
      · simp [getByte, h]
  · exact setType_fail p

/-- C02: `type()` and `group()` are the two nibbles of the first byte, `status()`, `byte3()`, `byte4()` the following
bytes. -/
theorem C02_header_fields (p : Packet) :
    p.type.toNat = p.w0.toNat / 2 ^ 28 ∧ p.group.toNat = p.w0.toNat / 2 ^ 24 % 16 ∧
    p.getByte 1 = .ok p.status ∧ p.getByte 2 = .ok p.byte3 ∧ p.getByte 3 = .ok p.byte4 := by
  have hm : ∀ n : Nat, n &&& 15 = n % 16 := fun n => Nat.and_two_pow_sub_one_eq_mod n 4
  have hlt := p.w0.isLt
  refine ⟨?_, ?_, by simp [getByte, status_eq], by simp [getByte, byte3_eq], by simp [getByte, byte4_eq]⟩
  · simp only [type, BitVec.toNat_setWidth, BitVec.toNat_and, BitVec.toNat_ushiftRight, Nat.shiftRight_eq_div_pow]
    simp [hm]; omega
  · simp only [group, BitVec.toNat_setWidth, BitVec.toNat_and, BitVec.toNat_ushiftRight, Nat.shiftRight_eq_div_pow]
    simp [hm]; omega

example : (5 : Byte) < 16 := by decide

/-! ## C03 -/

/-- The number of 32 bit words of a universal MIDI packet by message type, from the UMP specification (section 2.1.4). -/
def specPacketWords (t : Nat) : Nat :=
  if t ∈ [0x0, 0x1, 0x2, 0x6, 0x7] then 1
  else if t ∈ [0x3, 0x4, 0x8, 0x9, 0xA] then 2
  else if t ∈ [0xB, 0xC] then 3
  else 4

/-- C03: `size()` is the number of words that the UMP specification assigns to the message type. -/
theorem C03_size (p : Packet) : p.size = specPacketWords p.type.toNat := by
  have h : ∀ n, n < 16 → sizeLookup.getD n 0 = specPacketWords n := by decide
  exact h _ p.type_lt

/-- C03: two packets compare equal exactly if they have the same number of significant words and agree on them. -/
theorem C03_eq_iff (p q : Packet) :
    p.eqv q = true ↔ p.size = q.size ∧ ∀ i, i < q.size → p.word i = q.word i := by
  constructor
  · intro h
    have hs := size_congr (eqv_w0 h)
    exact ⟨hs, fun i hi => (eqv_iff p q).1 h i (hs ▸ hi)⟩
  · rintro ⟨hs, h⟩
    exact (eqv_iff p q).2 fun i hi => h i (hs ▸ hi)

/-- C03: `operator==` is an equivalence relation. -/
theorem C03_equivalence :
    (∀ p : Packet, p.eqv p = true) ∧ (∀ p q : Packet, p.eqv q = q.eqv p) ∧
    (∀ p q r : Packet, p.eqv q = true → q.eqv r = true → p.eqv r = true) := by
  refine ⟨fun p => by simp [eqv], fun p q => ?_, fun p q r h1 h2 => ?_⟩
  · rw [Bool.eq_iff_iff, C03_eq_iff, C03_eq_iff]
    constructor
    · rintro ⟨h, k⟩; exact ⟨h.symm, fun i hi => (k i (h ▸ hi)).symm⟩
    · rintro ⟨h, k⟩; exact ⟨h.symm, fun i hi => (k i (h ▸ hi)).symm⟩
  · rw [C03_eq_iff] at *
    exact ⟨h1.1.trans h2.1, fun i hi => (h1.2 i (h2.1 ▸ hi)).trans (h2.2 i hi)⟩

/-- C03: words beyond the packet's size never matter for `operator==`. -/
theorem C03_unused_words_ignored (p q : Packet) (i : Nat) (hi : i < 4) (h : p.size ≤ i) (w : Word) :
    (p.setWord i w).eqv q = p.eqv q ∧ q.eqv (p.setWord i w) = q.eqv p := by
  have hb := p.size_bounds
  have h0 : (p.setWord i w).w0 = p.w0 := word_setWord_ne p i 0 hi (by omega) (by omega) w
  have hs := size_congr h0
  have key : (p.setWord i w).eqv q = p.eqv q := by
    rw [Bool.eq_iff_iff, eqv_iff, eqv_iff, hs]
    constructor <;> intro k j hj
    · rw [← k j hj, word_setWord_ne p i j hi (by omega) (by omega)]
    · rw [← k j hj, word_setWord_ne p i j hi (by omega) (by omega)]
  exact ⟨key, by rw [C03_equivalence.2.1, key, C03_equivalence.2.1]⟩

/-- C03: `operator!=` is the negation of `operator==`. -/
theorem C03_neq (p q : Packet) : p.neqv q = true ↔ ¬ p.eqv q = true := by
  simp [neqv]

example : (⟨0x20904060, 7, 8, 9⟩ : Packet).eqv ⟨0x20904060, 1, 2, 3⟩ = true ∧
    (⟨0x40904060, 7, 8, 9⟩ : Packet).eqv ⟨0x40904060, 1, 2, 3⟩ = false := by decide

end Midi
