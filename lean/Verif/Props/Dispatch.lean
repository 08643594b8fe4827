import Verif.Model.Processor
import Verif.Props.Translation

/-!
# C76 and C77: filters for channel voice messages, and their documented use
-/

namespace Midi
open Packet

/-! ## Specification -/

/-- The upper four bits of the status byte, the second byte of a packet. -/
def opcode (p : Packet) : Nat := (p.byteAt 1).toNat / 16

/-- The filters for channel voice messages: those for messages of both protocols, and those for MIDI 2 messages only. -/
def filters : List (Packet → Bool) :=
  [isNoteOn, isNoteOff, isPolyPressure, isControlChange, isProgramChange, isChannelPressure, isPitchBend,
    isRegistered, isAssignable, isRegisteredPerNote, isAssignablePerNote, isPerNotePitchBend]

/-- The messages there are filters for: MIDI 1 channel voice messages (opcodes 8 to E), and MIDI 2 channel voice messages except for
relative controllers (opcodes 4 and 5), per note management (opcode F) and the undefined opcode 7. -/
def HasFilter (p : Packet) : Prop :=
  (p.byteAt 0).toNat / 16 = 2 ∧ 8 ≤ opcode p ∧ opcode p ≤ 14 ∨
    (p.byteAt 0).toNat / 16 = 4 ∧ opcode p ∈ [0, 1, 2, 3, 6, 8, 9, 10, 11, 12, 13, 14]

instance (p : Packet) : Decidable (HasFilter p) := inferInstanceAs (Decidable (_ ∨ _))

/-! ## Theorems -/

private theorem nibbles : ∀ s : Byte, ∀ k : Fin 16, ((s &&& 0xF0) == BitVec.ofNat 8 (16 * k.val)) = decide (s.toNat / 16 = k.val) := by
  decide +kernel

theorem nibble_iff (s : Byte) (k : Nat) (hk : k < 16) : ((s &&& 0xF0) == BitVec.ofNat 8 (16 * k)) = decide (s.toNat / 16 = k) :=
  nibbles s ⟨k, hk⟩

theorem type_toNat (p : Packet) : (p.byteAt 0).toNat / 16 = p.type.toNat := by
  have h1 : p.type = p.byteAt 0 >>> 4 := by simp only [Packet.type, Packet.byteAt, Packet.word]; bits
  rw [h1, BitVec.toNat_ushiftRight, Nat.shiftRight_eq_div_pow]

/-- The filters as functions of what they depend on: is the packet a MIDI 1 (MIDI 2) channel voice message, its status, is the
last byte of the first word zero. -/
def filterBits (t2 t4 z : Bool) (s : Byte) : List Bool :=
  [(s &&& 0xF0 == 0x90 && (t2 || t4)) && (t4 || !z),
    (s &&& 0xF0 == 0x80 && (t2 || t4)) || (t2 && s &&& 0xF0 == 0x90 && z),
    s &&& 0xF0 == 0xA0 && (t2 || t4), s &&& 0xF0 == 0xB0 && (t2 || t4), s &&& 0xF0 == 0xC0 && (t2 || t4),
    s &&& 0xF0 == 0xD0 && (t2 || t4), s &&& 0xF0 == 0xE0 && (t2 || t4),
    t4 && s &&& 0xF0 == 0x20, t4 && s &&& 0xF0 == 0x30, t4 && s &&& 0xF0 == 0x00, t4 && s &&& 0xF0 == 0x10, t4 && s &&& 0xF0 == 0x60]

theorem filters_eq (p : Packet) : filters.map (· p) =
    filterBits (p.type == 2) (p.type == 4) (p.byte4 == 0) (p.byteAt 1) := by
  have hs : p.byteAt 1 = p.status := by simp only [Packet.status, Packet.byte2, Packet.byteAt, Packet.word]
  rw [hs]
  have e : ∀ a b : Bool, (if a = true then b else false) = (a && b) := by decide
  have e2 : ∀ a b : Bool, (if a = true then true else b) = (a || b) := by decide
  simp only [filters, List.map_cons, List.map_nil, isNoteOn, isNoteOff, e, e2]
  rfl

private theorem count_bits : ∀ s : Byte, ∀ t2 t4 z : Bool, ¬ (t2 ∧ t4) →
    (filterBits t2 t4 z s).count true =
      if t2 ∧ 8 ≤ s.toNat / 16 ∧ s.toNat / 16 ≤ 14 ∨ t4 ∧ s.toNat / 16 ∈ [0, 1, 2, 3, 6, 8, 9, 10, 11, 12, 13, 14] then 1 else 0 := by
  decide +kernel

/-- Exactly one of the filters accepts a message there is a filter for, and none any other packet. -/
theorem C76_one_filter (p : Packet) : (filters.map (· p)).count true = if HasFilter p then 1 else 0 := by
  rw [filters_eq, count_bits]
  · have h : ∀ k : Nat, k < 256 → ((p.byteAt 0).toNat / 16 = k ↔ (p.type == BitVec.ofNat 8 k) = true) := by
      intro k hk
      rw [type_toNat, beq_iff_eq, ← BitVec.toNat_inj, BitVec.toNat_ofNat, Nat.mod_eq_of_lt (by simpa using hk)]
    simp only [HasFilter, opcode, h 2 (by decide), h 4 (by decide)]
    rfl
  · rintro ⟨a, b⟩
    rw [beq_iff_eq] at a b
    rw [a] at b
    exact absurd b (by decide)

/-- The filters for particular messages accept a part of what the general ones accept; those for the sensitivities of pitch bend and
per note pitch bend exclude each other. -/
theorem C76_refined_filters (p : Packet) (a : Byte) :
    (isNoteOnWithAttribute p a → isNoteOn p) ∧ (isNoteOnWithPitch79 p → isNoteOn p) ∧ (isNoteOffWithAttribute p a → isNoteOff p) ∧
    (isRegisteredPerNotePitch p → isRegisteredPerNote p) ∧ (isPitchBendSensitivity p → isRegistered p) ∧
    (isPerNotePitchBendSensitivity p → isRegistered p) ∧ ¬ (isPitchBendSensitivity p ∧ isPerNotePitchBendSensitivity p) := by
  have t : isMidi2CV p = (p.type == 4) := rfl
  have on : ∀ b, isNoteOnWithAttribute p b → isNoteOn p := by
    intro b h
    simp only [isNoteOnWithAttribute, t, Bool.and_eq_true, beq_iff_eq, CVStatus.noteOn] at h
    obtain ⟨⟨h4, h9⟩, -⟩ := h
    exact (C11_meaning p).1.2 (.inl ⟨h4, (status_nibble _ 0x90 rfl).1 h9⟩)
  refine ⟨on a, on _, ?_, ?_, ?_, ?_, ?_⟩
  · intro h
    simp only [isNoteOffWithAttribute, t, Bool.and_eq_true, beq_iff_eq, CVStatus.noteOff] at h
    obtain ⟨⟨h4, h8⟩, -⟩ := h
    exact (C11_meaning p).2.2 (.inl ⟨.inr h4, (status_nibble _ 0x80 rfl).1 h8⟩)
  · intro h
    simp only [isRegisteredPerNotePitch, Bool.and_eq_true] at h
    exact h.1
  · intro h
    simp only [isPitchBendSensitivity, Bool.and_eq_true] at h
    exact h.1.1
  · intro h
    simp only [isPerNotePitchBendSensitivity, Bool.and_eq_true] at h
    exact h.1.1
  · rintro ⟨h, h'⟩
    simp only [isPitchBendSensitivity, isPerNotePitchBendSensitivity, Bool.and_eq_true, beq_iff_eq] at h h'
    rw [h.2] at h'
    exact absurd h'.2 (by decide)

private theorem bits_translated : ∀ s : Byte, 8 ≤ s.toNat / 16 → s.toNat / 16 ≤ 14 → ∀ z z' : Bool,
    (s.toNat / 16 = 9 → z = false) → filterBits false true z' s = filterBits true false z s := by
  decide +kernel

private theorem bits_translated_zero : ∀ s : Byte, s.toNat / 16 = 9 → ∀ z' : Bool,
    filterBits false true z' (0x80 ||| (s &&& 0x0F)) = filterBits true false true s := by
  decide +kernel

/-- Every filter gives the same answer for a MIDI 1 message and its MIDI 2 translation. -/
theorem C76_filters_agree (p q : Packet) (h : WellFormedMidi1 p) (hq : asMidi2 p = .ok (some q)) :
    filters.map (· q) = filters.map (· p) := by
  obtain ⟨ht, hlo, hhi, h3, h4, hz⟩ := h
  obtain ⟨c8, c9z, c9, cA, cB, cC, cD, cE⟩ := asMidi2_cases p h3 h4
  have hst := fun k hk => status_nibble p.status k hk
  have hs : ∀ p : Packet, p.byteAt 1 = p.status := fun p => by
    simp only [Packet.status, Packet.byte2, Packet.byteAt, Packet.word]
  rw [filters_eq, filters_eq, hs, hs, ht]
  have key : ∀ k a b d, p.status &&& 0xF0 = k → (p.status.toNat / 16 = 9 → p.byte4 ≠ 0) →
      q = midi2Message p.group k (p.status &&& 0x0F) a b d →
      filterBits (q.type == 2) (q.type == 4) (q.byte4 == 0) q.status =
        filterBits ((2 : Byte) == 2) ((2 : Byte) == 4) (p.byte4 == 0) p.status := by
    intro k a b d hk h9 e
    obtain ⟨e1, -, e2⟩ := midi2_header p k a b d hk
    rw [← e] at e1 e2
    rw [e1, e2]
    exact bits_translated _ hlo hhi _ _ (fun o => by simpa using h9 o)
  rcases (show p.status.toNat / 16 = 8 ∨ p.status.toNat / 16 = 9 ∨ p.status.toNat / 16 = 10 ∨
      p.status.toNat / 16 = 11 ∨ p.status.toNat / 16 = 12 ∨ p.status.toNat / 16 = 13 ∨ p.status.toNat / 16 = 14 by
        omega) with o | o | o | o | o | o | o
  · rw [c8 o] at hq
    exact key _ _ _ _ ((hst 0x80 rfl).2 o) (by omega) (Option.some.inj (Except.ok.inj hq)).symm
  · by_cases hv : p.byte4 = 0
    · rw [c9z o hv] at hq
      obtain rfl := Option.some.inj (Except.ok.inj hq)
      rw [makeMidi2NoteOff, type_midi2Message, status_midi2Message, hv, and0F_of_lt (and0F_lt _)]
      exact bits_translated_zero _ o _
    · rw [c9 o hv] at hq
      exact key _ _ _ _ ((hst 0x90 rfl).2 o) (fun _ => hv) (Option.some.inj (Except.ok.inj hq)).symm
  · rw [cA o] at hq
    exact key _ _ _ _ ((hst 0xA0 rfl).2 o) (by omega) (Option.some.inj (Except.ok.inj hq)).symm
  · rw [cB o] at hq
    by_cases hu : untranslatedControllers.contains p.byte3 = true
    · rw [if_pos hu] at hq; cases hq
    · rw [if_neg hu] at hq
      exact key _ _ _ _ ((hst 0xB0 rfl).2 o) (by omega) (Option.some.inj (Except.ok.inj hq)).symm
  · rw [cC o] at hq
    exact key _ _ _ _ ((hst 0xC0 rfl).2 o) (by omega) (Option.some.inj (Except.ok.inj hq)).symm
  · rw [cD o] at hq
    exact key _ _ _ _ ((hst 0xD0 rfl).2 o) (by omega) (Option.some.inj (Except.ok.inj hq)).symm
  · rw [cE o] at hq
    obtain ⟨pb, hpb, -⟩ := C06_round_trip_14 _ (value14_lt _ _ h3 h4)
    rw [hpb] at hq
    exact key _ _ _ _ ((hst 0xE0 rfl).2 o) (by omega) (Option.some.inj (Except.ok.inj hq)).symm

example := C76_filters_agree ⟨0x23903C64, 0, 0, 0⟩ _ (by decide) rfl

/-- What a filter tells about a MIDI 1 message. -/
theorem midi1_filters (p : Packet) (ht : p.type = 2) :
    (isNoteOn p → p.status.toNat / 16 = 9) ∧ (isNoteOff p → p.status.toNat / 16 = 8 ∨ p.status.toNat / 16 = 9) ∧
    (isPolyPressure p → p.status.toNat / 16 = 10) ∧ isRegisteredPerNote p = false ∧ isPerNotePitchBend p = false ∧
    (isControlChange p → p.status.toNat / 16 = 11) ∧ (isPitchBend p → p.status.toNat / 16 = 14) := by
  have hst := fun k hk => status_nibble p.status k hk
  have m : isMidi2CV p = false := by unfold isMidi2CV; rw [ht]; rfl
  have cv : ∀ k : Byte, k.toNat % 16 = 0 → isCVWithStatus p k = true → p.status.toNat / 16 = k.toNat / 16 := by
    intro k hk h
    simp only [isCVWithStatus, Bool.and_eq_true, beq_iff_eq] at h
    exact (hst k hk).1 h.1
  refine ⟨fun h => ?_, fun h => ?_, cv _ rfl, ?_, ?_, cv _ rfl, cv _ rfl⟩
  · rcases (C11_meaning p).1.1 h with ⟨a, b⟩ | ⟨a, b, -⟩ <;> exact b
  · rcases (C11_meaning p).2.1 h with ⟨a, b⟩ | ⟨a, b, -⟩
    · exact .inl b
    · exact .inr b
  · unfold isRegisteredPerNote; rw [m]; rfl
  · unfold isPerNotePitchBend; rw [m]; rfl

/-- The documented processor treats a MIDI 1 message and its MIDI 2 translation alike. -/
theorem C76_processor_agrees (p q : Packet) (h : WellFormedMidi1 p) (hq : asMidi2 p = .ok (some q)) :
    processor q = processor p := by
  have hf := C76_filters_agree p q h hq
  obtain ⟨g1, g2, g3, g4, g5, g6, g7⟩ := C51_getters_agree p q h hq
  obtain ⟨f1, f2, f3, f4, f5, f6, f7⟩ := midi1_filters p h.1
  simp only [filters, List.map_cons, List.map_nil, List.cons.injEq] at hf
  obtain ⟨e1, e2, e3, e4, -, -, e7, -, -, e10, -, e12, -⟩ := hf
  unfold processor
  rw [e1, e2, e3, e4, e7, e10, e12]
  by_cases c1 : isNoteOn p = true
  · have o := f1 c1
    rw [if_pos c1, if_pos c1, g1 (.inr (.inl o)), (g2 (.inr o)).1, (g2 (.inr o)).2.1]
  rw [if_neg c1, if_neg c1]
  by_cases c2 : isNoteOff p = true
  · have o := f2 c2
    rw [if_pos c2, if_pos c2, g1 (by omega), (g2 o).1]
  rw [if_neg c2, if_neg c2]
  by_cases c3 : isPolyPressure p = true
  · have o := f3 c3
    rw [if_pos c3, if_pos c3, g1 (by omega), g3 (.inl o)]
  rw [if_neg c3, if_neg c3, f4, f5]
  simp only [Bool.false_eq_true, if_false]
  by_cases c4 : isControlChange p = true
  · have o := f6 c4
    rw [if_pos c4, if_pos c4, g4 o, g3 (.inr o)]
  rw [if_neg c4, if_neg c4]
  by_cases c5 : isPitchBend p = true
  · have o := f7 c5
    rw [if_pos c5, if_pos c5, g7 o]
  · rw [if_neg c5, if_neg c5]

example := C76_processor_agrees ⟨0x23B04A64, 0, 0, 0⟩ _ (by decide) rfl

/-- The documented processor is defined for all packets but MIDI 1 pitch bends whose second data byte has the high bit set. -/
theorem C77_defined_partial (p : Packet) :
    (∃ a, processor p = .ok a) ↔ ¬ ((p.byteAt 0).toNat / 16 = 2 ∧ opcode p = 14 ∧ 128 ≤ (p.byteAt 3).toNat) := by
  have hs : p.byteAt 1 = p.status := by simp only [Packet.status, Packet.byte2, Packet.byteAt, Packet.word]
  have h4 : p.byteAt 3 = p.byte4 := by simp only [Packet.byte4, Packet.byteAt, Packet.word]; bits
  have ht : (p.byteAt 0).toNat / 16 = 2 ↔ p.type = 2 := by
    rw [type_toNat, ← BitVec.toNat_inj]; rfl
  have hb : (128 ≤ p.byte4.toNat) ↔ ¬ p.byte4 < 128 := by rw [BitVec.lt_def]; simp
  have hst := fun k hk => status_nibble p.status k hk
  rw [ht, opcode, hs, h4, hb]
  by_cases hp : isPitchBend p = true
  · have hp' : p.status &&& 0xF0 = 0xE0 ∧ p.isChannelVoice = true := by
      simpa only [isPitchBend, isCVWithStatus, Bool.and_eq_true, beq_iff_eq] using hp
    have o := (hst 0xE0 rfl).1 hp'.1
    have others : processor p = (do return .channelPitchBend (← pitchBendValue p)) := by
      have hf := filters_eq p
      simp only [filters, filterBits, List.map_cons, List.map_nil, List.cons.injEq, hs, hp'.1] at hf
      obtain ⟨e1, e2, e3, e4, -, -, -, -, -, e10, -, e12, -⟩ := hf
      have z : ∀ b : Bool, (b && (0xE0 : Byte) == 0x00) = false ∧ (b && (0xE0 : Byte) == 0x60) = false := by decide
      have e1' : isNoteOn p = false := by rw [e1]; generalize (p.type == 2) = a, (p.type == 4) = b, (p.byte4 == 0) = c; revert a b c; decide
      have e2' : isNoteOff p = false := by rw [e2]; generalize (p.type == 2) = a, (p.type == 4) = b, (p.byte4 == 0) = c; revert a b c; decide
      have e3' : isPolyPressure p = false := by rw [e3]; generalize (p.type == 2) = a, (p.type == 4) = b; revert a b; decide
      have e4' : isControlChange p = false := by rw [e4]; generalize (p.type == 2) = a, (p.type == 4) = b; revert a b; decide
      have e5' : isRegisteredPerNote p = false := by rw [e10]; exact (z _).1
      have e6' : isPerNotePitchBend p = false := by rw [e12]; exact (z _).2
      unfold processor
      rw [e1', e2', e3', e4', e5', e6', hp]
      rfl
    rw [others]
    by_cases t2 : p.type = 2
    · have := C51_pitch_bend_defined p t2
      simp only [t2, true_and, show p.status.toNat / 16 = 14 from o, not_not]
      rw [← this]
      cases pitchBendValue p with
      | error e => constructor <;> rintro ⟨a, ha⟩ <;> cases ha
      | ok v => exact ⟨fun _ => ⟨v, rfl⟩, fun _ => ⟨_, rfl⟩⟩
    · refine iff_of_true ⟨.channelPitchBend p.w1, ?_⟩ (fun h => t2 h.1)
      unfold pitchBendValue
      rw [if_neg (show ¬ p.type = PacketType.midi1ChannelVoice from t2)]
      rfl
  · refine iff_of_true ?_ ?_
    · unfold processor
      rw [if_neg hp]
      repeat' split
      all_goals exact ⟨_, rfl⟩
    · rintro ⟨t2, o, -⟩
      refine hp ?_
      unfold isPitchBend isCVWithStatus
      rw [(hst 0xE0 rfl).2 o]
      simp only [Packet.isChannelVoice, PacketType.midi1ChannelVoice, PacketType.midi2ChannelVoice, t2]
      decide

/-- A packet for which the documented processor runs into undefined behaviour. -/
theorem C77_undefined : processor ⟨0x20E00080, 0, 0, 0⟩ = .error .badShift := by rfl

/-- A note on with velocity zero and its translation; and packets without filter. -/
example : (∃ q, WellFormedMidi1 ⟨0x25903C00, 0, 0, 0⟩ ∧ asMidi2 ⟨0x25903C00, 0, 0, 0⟩ = .ok (some q) ∧ isNoteOff q = true) ∧
    HasFilter ⟨0x25903C00, 0, 0, 0⟩ ∧ HasFilter ⟨0x45203C00, 7, 0, 0⟩ ∧ ¬ HasFilter ⟨0x45403C00, 7, 0, 0⟩ ∧
    ¬ HasFilter ⟨0x25403C00, 7, 0, 0⟩ :=
  ⟨⟨⟨0x45803C00, 0x80000000, 0, 0⟩, by decide⟩, by decide⟩

end Midi
