import Verif.Lemmas.Messages
import Verif.Props.Scaling
import Verif.Props.Messages
import Verif.Spec.Translation

/-!
# Properties C09, C10, C51: translation between MIDI 1 and MIDI 2 channel voice messages
-/

namespace Midi
open Packet

/-- A MIDI 1 channel voice message as it appears on the wire: opcode 8 to E, 7 bit data, no second data byte for
program change and channel pressure. -/
def WellFormedMidi1 (p : Packet) : Prop :=
  p.type = 2 ∧ 8 ≤ p.status.toNat / 16 ∧ p.status.toNat / 16 ≤ 14 ∧ p.byte3 < 128 ∧ p.byte4 < 128 ∧
  (p.status.toNat / 16 = 0xC ∨ p.status.toNat / 16 = 0xD → p.byte4 = 0)

instance (p : Packet) : Decidable (WellFormedMidi1 p) := by unfold WellFormedMidi1; infer_instance

theorem status_nibble (s k : Byte) (hk : k.toNat % 16 = 0) : s &&& 0xF0 = k ↔ s.toNat / 16 = k.toNat / 16 := by
  have e := toNat_andF0 s
  constructor
  · intro h; rw [h] at e; omega
  · intro h; apply BitVec.eq_of_toNat_eq; omega

theorem untranslated_iff (b : Byte) :
    untranslatedControllers.contains b = true ↔ b.toNat ∈ sequenceControllers := by
  have : ∀ b : Byte, untranslatedControllers.contains b = true ↔ b.toNat ∈ sequenceControllers := by decide +kernel
  exact this b

/-- MIDI 1 packets built from the fields of a well formed one compare equal to it. -/
theorem makeMidi1_eqv {p : Packet} (ht : p.type = 2) (h3 : p.byte3 < 128) (h4 : p.byte4 < 128) (k : Byte)
    (hs : p.status &&& 0xF0 = k) : (makeMidi1 p.group k (p.status &&& 0x0F) p.byte3 p.byte4).eqv p = true := by
  have hw : (makeMidi1 p.group k (p.status &&& 0x0F) p.byte3 p.byte4).w0 = p.w0 := by
    apply w0_ext
    · rw [makeMidi1, type_midi1Message, ht]
    · rw [makeMidi1, group_midi1Message, and0F_of_lt p.group_lt]
    · rw [makeMidi1, status_midi1Message, ← hs, and0F_of_lt (and0F_lt _), status_split]
    · rw [makeMidi1, byte3_midi1Message, and7F_of_lt h3]
    · rw [makeMidi1, byte4_midi1Message, and7F_of_lt h4]
  rw [eqv_iff]
  have hsz : (makeMidi1 p.group k (p.status &&& 0x0F) p.byte3 p.byte4).size = 1 := by
    have : (makeMidi1 p.group k (p.status &&& 0x0F) p.byte3 p.byte4).type = 2 := by
      rw [makeMidi1, type_midi1Message]
    unfold size; rw [this]; rfl
  intro i hi
  rw [hsz] at hi
  obtain rfl : i = 0 := by omega
  exact hw

theorem noteData_hi (v d : U16) : ((noteData v d) >>> 16).setWidth 16 = v := by unfold noteData; bits
theorem shl16_hi (v : U16) : ((v.setWidth 32 <<< 16 : Word) >>> 16).setWidth 16 = v := by bits

theorem pb_bytes (a b : Byte) (ha : a < 128) (hb : b < 128) :
    (((a.setWidth 16 ||| (b.setWidth 16 <<< 7) : U16) &&& 0x7F).setWidth 8 : Byte) = a ∧
    ((((a.setWidth 16 ||| (b.setWidth 16 <<< 7) : U16) >>> 7) &&& 0x7F).setWidth 8 : Byte) = b := by
  have h1 := lt128_bits ha
  have h2 := lt128_bits hb
  constructor <;> bits [h1, h2]

theorem value14_lt (a b : Byte) (ha : a < 128) (hb : b < 128) :
    (a.setWidth 16 ||| (b.setWidth 16 <<< 7) : U16).toNat < 2 ^ 14 := by
  have h := toNat_of14 a b
  rw [and7F_of_lt ha, and7F_of_lt hb] at h
  rw [h]
  omega


/-- What `asMidi1` sees of a constructed message. -/
theorem midi2Message_fields (g k c a b : Byte) (d : Word) (hg : g < 16) (hc : c < 16) :
    midi2Status (midi2Message g k c a b d) = k &&& 0xF0 ∧ (midi2Message g k c a b d).group = g ∧
    midi2Channel (midi2Message g k c a b d) = c ∧ midi2Byte3 (midi2Message g k c a b d) = a &&& 0x7F ∧
    midi2Byte4 (midi2Message g k c a b d) = b &&& 0x7F ∧ midi2Data (midi2Message g k c a b d) = d := by
  refine ⟨?_, ?_, ?_, ?_, ?_, rfl⟩
  · rw [midi2Status, status_midi2Message, status_hi]
  · rw [group_midi2Message, and0F_of_lt hg]
  · rw [midi2Channel, status_midi2Message, status_lo, and0F_of_lt hc]
  · rw [midi2Byte3, byte3_midi2Message]
  · rw [midi2Byte4, byte4_midi2Message]

theorem asMidi1_noteOff (g c n : Byte) (v d : U16) (hg : g < 16) (hc : c < 16) (hn : n < 128) :
    asMidi1 (makeMidi2NoteOff g c n v 0 d) = some (makeMidi1NoteOff g c n v) := by
  obtain ⟨e1, e2, e3, e4, e5, e6⟩ := midi2Message_fields g CVStatus.noteOff c (n &&& 0x7F) 0 (noteData v d) hg hc
  unfold asMidi1 makeMidi2NoteOff
  rw [and7F_of_lt hn] at *
  simp only [e1, e2, e3, e4, e5, e6, and7F_of_lt hn, noteData_hi]
  rfl

theorem asMidi1_noteOn (g c n : Byte) (v : U16) (hg : g < 16) (hc : c < 16) (hn : n < 128) :
    asMidi1 (makeMidi2NoteOn g c n v) =
      some (makeMidi1NoteOn g c n (if velocityAs7 v = 0 then velocityOf7 1 else v)) := by
  obtain ⟨e1, e2, e3, e4, e5, e6⟩ := midi2Message_fields g CVStatus.noteOn c n 0 (v.setWidth 32 <<< 16) hg hc
  unfold asMidi1 makeMidi2NoteOn
  simp only [e1, e2, e3, e4, e5, e6, and7F_of_lt hn, shl16_hi]
  rfl

theorem asMidi1_polyPressure (g c n : Byte) (w : Word) (hg : g < 16) (hc : c < 16) (hn : n < 128) :
    asMidi1 (makeMidi2PolyPressure g c n w) = some (makeMidi1PolyPressure g c n w) := by
  obtain ⟨e1, e2, e3, e4, e5, e6⟩ := midi2Message_fields g CVStatus.polyPressure c n 0 w hg hc
  unfold asMidi1 makeMidi2PolyPressure
  simp only [e1, e2, e3, e4, e5, e6, and7F_of_lt hn]
  rfl

theorem asMidi1_controlChange (g c n : Byte) (w : Word) (hg : g < 16) (hc : c < 16) (hn : n < 128) :
    asMidi1 (makeMidi2ControlChange g c n w) =
      if untranslatedControllers.contains n then none else some (makeMidi1ControlChange g c n w) := by
  obtain ⟨e1, e2, e3, e4, e5, e6⟩ := midi2Message_fields g CVStatus.controlChange c n 0 w hg hc
  unfold asMidi1 makeMidi2ControlChange
  rw [and7F_of_lt hn]
  simp only [e1, e2, e3, e4, e5, e6, and7F_of_lt hn]
  rfl

theorem asMidi1_programChange (g c n : Byte) (hg : g < 16) (hc : c < 16) (hn : n < 128) :
    asMidi1 (makeMidi2ProgramChange g c n) = some (makeMidi1ProgramChange g c n) := by
  have hp : (((n.setWidth 32 <<< 24 : Word) >>> 24).setWidth 8) = n := by bits
  obtain ⟨e1, e2, e3, e4, e5, e6⟩ :=
    midi2Message_fields g CVStatus.programChange c 0 0 (n.setWidth 32 <<< 24) hg hc
  unfold asMidi1 makeMidi2ProgramChange
  rw [and7F_of_lt hn]
  simp only [e1, e2, e3, e4, e5, e6, hp]
  rfl

theorem asMidi1_channelPressure (g c : Byte) (w : Word) (hg : g < 16) (hc : c < 16) :
    asMidi1 (makeMidi2ChannelPressure g c w) = some (makeMidi1ChannelPressure g c w) := by
  obtain ⟨e1, e2, e3, e4, e5, e6⟩ := midi2Message_fields g CVStatus.channelPressure c 0 0 w hg hc
  unfold asMidi1 makeMidi2ChannelPressure
  simp only [e1, e2, e3, e4, e5, e6]
  rfl

theorem asMidi1_pitchBend (g c : Byte) (w : Word) (hg : g < 16) (hc : c < 16) :
    asMidi1 (makeMidi2PitchBend g c w) = some (makeMidi1PitchBend g c w) := by
  obtain ⟨e1, e2, e3, e4, e5, e6⟩ := midi2Message_fields g CVStatus.pitchBend c 0 0 w hg hc
  unfold asMidi1 makeMidi2PitchBend
  simp only [e1, e2, e3, e4, e5, e6]
  rfl

/-- The MIDI 2 message a well formed MIDI 1 message is translated to. -/
theorem asMidi2_cases (p : Packet) (h3 : p.byte3 < 128) (h4 : p.byte4 < 128) :
    (p.status.toNat / 16 = 8 →
      asMidi2 p = .ok (some (makeMidi2NoteOff p.group (p.status &&& 0x0F) p.byte3 (velocityOf7 p.byte4) 0 0))) ∧
    (p.status.toNat / 16 = 9 → p.byte4 = 0 →
      asMidi2 p = .ok (some (makeMidi2NoteOff p.group (p.status &&& 0x0F) p.byte3 (velocityOf7 64) 0 0))) ∧
    (p.status.toNat / 16 = 9 → p.byte4 ≠ 0 →
      asMidi2 p = .ok (some (makeMidi2NoteOn p.group (p.status &&& 0x0F) p.byte3 (velocityOf7 p.byte4)))) ∧
    (p.status.toNat / 16 = 10 →
      asMidi2 p = .ok (some (makeMidi2PolyPressure p.group (p.status &&& 0x0F) p.byte3 (controllerOf7 p.byte4)))) ∧
    (p.status.toNat / 16 = 11 →
      asMidi2 p = .ok (if untranslatedControllers.contains p.byte3 then none
        else some (makeMidi2ControlChange p.group (p.status &&& 0x0F) p.byte3 (controllerOf7 p.byte4)))) ∧
    (p.status.toNat / 16 = 12 →
      asMidi2 p = .ok (some (makeMidi2ProgramChange p.group (p.status &&& 0x0F) p.byte3))) ∧
    (p.status.toNat / 16 = 13 →
      asMidi2 p = .ok (some (makeMidi2ChannelPressure p.group (p.status &&& 0x0F) (controllerOf7 p.byte3)))) ∧
    (p.status.toNat / 16 = 14 →
      asMidi2 p = (pitchBendOf14 (p.byte3.setWidth 16 ||| (p.byte4.setWidth 16 <<< 7))).map
        fun pb => some (makeMidi2PitchBend p.group (p.status &&& 0x0F) pb)) := by
  have hst := fun k hk => status_nibble p.status k hk
  unfold asMidi2
  simp only [midi1Status, midi1Channel, midi1Data1, midi1Data2, midi1Value14, and7F_of_lt h3, and7F_of_lt h4]
  refine ⟨fun o => ?_, fun o v => ?_, fun o v => ?_, fun o => ?_, fun o => ?_, fun o => ?_, fun o => ?_, fun o => ?_⟩
  · rw [(hst 0x80 rfl).2 o]; rfl
  · rw [(hst 0x90 rfl).2 o, if_neg (by decide), if_pos (by decide), if_pos v]
  · rw [(hst 0x90 rfl).2 o, if_neg (by decide), if_pos (by decide), if_neg v]
  · rw [(hst 0xA0 rfl).2 o]; rfl
  · rw [(hst 0xB0 rfl).2 o]
    cases untranslatedControllers.contains p.byte3 <;> rfl
  · rw [(hst 0xC0 rfl).2 o]; rfl
  · rw [(hst 0xD0 rfl).2 o]; rfl
  · rw [(hst 0xE0 rfl).2 o]; rfl

theorem midi2_header (p : Packet) (k a b : Byte) (d : Word) (hs : p.status &&& 0xF0 = k) :
    (midi2Message p.group k (p.status &&& 0x0F) a b d).type = 4 ∧
    (midi2Message p.group k (p.status &&& 0x0F) a b d).group = p.group ∧
    (midi2Message p.group k (p.status &&& 0x0F) a b d).status = p.status := by
  refine ⟨type_midi2Message .., ?_, ?_⟩
  · rw [group_midi2Message, and0F_of_lt p.group_lt]
  · have e : (p.status &&& 0xF0) &&& 0xF0 = p.status &&& 0xF0 := by bits
    rw [status_midi2Message, ← hs, e, and0F_of_lt (and0F_lt _), status_split]

/-! ## C09 -/

/-- C09: translating a MIDI 1 channel voice message to MIDI 2 and back returns the same message, for every group,
channel and 7 bit data, except for the sequence controllers and Note Ons with velocity zero (see below). The message
in between is a MIDI 2 channel voice message of the same kind, group and channel. -/
theorem C09_round_trip (p : Packet) (h : WellFormedMidi1 p)
    (hcc : p.status.toNat / 16 = 0xB → p.byte3.toNat ∉ sequenceControllers)
    (hv : p.status.toNat / 16 = 0x9 → p.byte4 ≠ 0) :
    ∃ q r, asMidi2 p = .ok (some q) ∧ q.type = 4 ∧ q.group = p.group ∧ q.status = p.status ∧
      asMidi1 q = some r ∧ r.eqv p = true := by
  obtain ⟨ht, hlo, hhi, h3, h4, hz⟩ := h
  have hst := fun k hk => status_nibble p.status k hk
  have key := fun k hk => makeMidi1_eqv ht h3 h4 k hk
  have hg := p.group_lt
  have hc := and0F_lt p.status
  obtain ⟨c8, -, c9, cA, cB, cC, cD, cE⟩ := asMidi2_cases p h3 h4
  rcases (show p.status.toNat / 16 = 8 ∨ p.status.toNat / 16 = 9 ∨ p.status.toNat / 16 = 10 ∨
      p.status.toNat / 16 = 11 ∨ p.status.toNat / 16 = 12 ∨ p.status.toNat / 16 = 13 ∨ p.status.toNat / 16 = 14 by
        omega) with o | o | o | o | o | o | o
  · have hs := (hst 0x80 rfl).2 o
    obtain ⟨m1, m2, m3⟩ := midi2_header p _ (p.byte3 &&& 0x7F) 0 (noteData (velocityOf7 p.byte4) 0) hs
    refine ⟨_, _, c8 o, m1, m2, m3, asMidi1_noteOff _ _ _ _ _ hg hc h3, ?_⟩
    rw [makeMidi1NoteOff, (C06_round_trip_7 _ h4).1]
    exact key _ hs
  · have hs := (hst 0x90 rfl).2 o
    obtain ⟨m1, m2, m3⟩ := midi2_header p _ p.byte3 0 ((velocityOf7 p.byte4).setWidth 32 <<< 16) hs
    refine ⟨_, _, c9 o (hv o), m1, m2, m3, asMidi1_noteOn _ _ _ _ hg hc h3, ?_⟩
    rw [(C06_round_trip_7 _ h4).1, if_neg (hv o), makeMidi1NoteOn, (C06_round_trip_7 _ h4).1]
    exact key _ hs
  · have hs := (hst 0xA0 rfl).2 o
    obtain ⟨m1, m2, m3⟩ := midi2_header p _ p.byte3 0 (controllerOf7 p.byte4) hs
    refine ⟨_, _, cA o, m1, m2, m3, asMidi1_polyPressure _ _ _ _ hg hc h3, ?_⟩
    rw [makeMidi1PolyPressure, (C06_round_trip_7 _ h4).2]
    exact key _ hs
  · have hs : p.status &&& 0xF0 = CVStatus.controlChange := (hst 0xB0 rfl).2 o
    obtain ⟨m1, m2, m3⟩ := midi2_header p _ (p.byte3 &&& 0x7F) 0 (controllerOf7 p.byte4) hs
    have hu : ¬ untranslatedControllers.contains p.byte3 = true := fun hx => hcc o ((untranslated_iff _).1 hx)
    refine ⟨makeMidi2ControlChange p.group (p.status &&& 0x0F) p.byte3 (controllerOf7 p.byte4), _,
      (cB o).trans (by rw [if_neg hu]), m1, m2, m3,
      (asMidi1_controlChange _ _ _ _ hg hc h3).trans (by rw [if_neg hu]), ?_⟩
    rw [makeMidi1ControlChange, (C06_round_trip_7 _ h4).2]
    exact key _ hs
  · have hs := (hst 0xC0 rfl).2 o
    obtain ⟨m1, m2, m3⟩ := midi2_header p _ 0 0 ((p.byte3 &&& 0x7F).setWidth 32 <<< 24) hs
    refine ⟨_, _, cC o, m1, m2, m3, asMidi1_programChange _ _ _ hg hc h3, ?_⟩
    have k := key _ hs
    rwa [hz (.inl o)] at k
  · have hs := (hst 0xD0 rfl).2 o
    obtain ⟨m1, m2, m3⟩ := midi2_header p _ 0 0 (controllerOf7 p.byte3) hs
    refine ⟨_, _, cD o, m1, m2, m3, asMidi1_channelPressure _ _ _ hg hc, ?_⟩
    rw [makeMidi1ChannelPressure, (C06_round_trip_7 _ h3).2]
    have k := key _ hs
    rwa [hz (.inr o)] at k
  · have hs := (hst 0xE0 rfl).2 o
    obtain ⟨pb, hpb, -, hd, -⟩ := C06_round_trip_14 _ (value14_lt _ _ h3 h4)
    obtain ⟨m1, m2, m3⟩ := midi2_header p _ 0 0 pb hs
    refine ⟨_, _, (cE o).trans (by rw [hpb]; rfl), m1, m2, m3, asMidi1_pitchBend _ _ _ hg hc, ?_⟩
    obtain ⟨b1, b2⟩ := pb_bytes _ _ h3 h4
    simp only [makeMidi1PitchBend, hd, b1, b2]
    exact key _ hs

example := C09_round_trip ⟨0x23953C64, 0, 0, 0⟩ (by decide) (by decide) (by decide)

/-- C09: a Note On with velocity zero becomes a MIDI 2 Note Off and comes back as the Note Off of the same note with
velocity 64. -/
theorem C09_zero_velocity (p : Packet) (hs : p.status.toNat / 16 = 0x9) (h3 : p.byte3 < 128)
    (h4 : p.byte4 = 0) :
    ∃ q r, asMidi2 p = .ok (some q) ∧ q.type = 4 ∧ isNoteOff q = true ∧ q.group = p.group ∧
      asMidi1 q = some r ∧ r.type = 2 ∧ r.group = p.group ∧ r.status.toNat / 16 = 8 ∧
      r.status.toNat % 16 = p.status.toNat % 16 ∧ r.byte3 = p.byte3 ∧ r.byte4 = 64 := by
  have hg := p.group_lt
  have hc := and0F_lt p.status
  have e0 : (p.status &&& 0x0F).toNat = p.status.toNat % 16 := toNat_and0F _
  obtain ⟨-, c9, -⟩ := asMidi2_cases p h3 (by rw [h4]; decide)
  refine ⟨_, _, c9 hs h4, ?_, ?_, ?_, asMidi1_noteOff _ _ _ _ _ hg hc h3, ?_, ?_, ?_, ?_, ?_, ?_⟩
  · exact type_midi2Message ..
  · rw [(C11_meaning _).2]
    refine .inl ⟨.inr (type_midi2Message ..), ?_⟩
    rw [makeMidi2NoteOff, status_midi2Message, toNat_stat]
    simp only [CVStatus.noteOff]
    simp; omega
  · rw [makeMidi2NoteOff, group_midi2Message, and0F_of_lt hg]
  · exact type_midi1Message ..
  · rw [makeMidi1NoteOff, makeMidi1, group_midi1Message, and0F_of_lt hg]
  · rw [makeMidi1NoteOff, makeMidi1, status_midi1Message]
    have := toNat_stat CVStatus.noteOff (p.status &&& 0x0F)
    rw [show CVStatus.noteOff &&& 0xF0 = CVStatus.noteOff from rfl] at this
    rw [this]; simp only [CVStatus.noteOff]; simp; omega
  · rw [makeMidi1NoteOff, makeMidi1, status_midi1Message]
    have := toNat_stat CVStatus.noteOff (p.status &&& 0x0F)
    rw [show CVStatus.noteOff &&& 0xF0 = CVStatus.noteOff from rfl] at this
    rw [this, e0]; simp only [CVStatus.noteOff]; simp; omega
  · rw [makeMidi1NoteOff, makeMidi1, byte3_midi1Message, and7F_of_lt h3]
  · rw [makeMidi1NoteOff, makeMidi1, byte4_midi1Message, (C06_round_trip_7 64 (by decide)).1]; rfl

/-- C09: the sequence controllers are the only well formed messages without translation. -/
theorem C09_untranslated (p : Packet) (h : WellFormedMidi1 p) :
    asMidi2 p = .ok none ↔ p.status.toNat / 16 = 0xB ∧ p.byte3.toNat ∈ sequenceControllers := by
  constructor
  · intro hn
    by_contra hx
    by_cases hz : p.status.toNat / 16 = 0x9 ∧ p.byte4 = 0
    · obtain ⟨q, r, hq, -⟩ := C09_zero_velocity p hz.1 h.2.2.2.1 hz.2
      rw [hn] at hq; cases hq
    · obtain ⟨q, r, hq, -⟩ := C09_round_trip p h (fun ho hm => hx ⟨ho, hm⟩) (fun ho h0 => hz ⟨ho, h0⟩)
      rw [hn] at hq; cases hq
  · rintro ⟨o, hm⟩
    obtain ⟨-, -, -, -, cB, -⟩ := asMidi2_cases p h.2.2.2.1 h.2.2.2.2.1
    rw [cB o, if_pos ((untranslated_iff _).2 hm)]

example : WellFormedMidi1 ⟨0x23E15A12, 0, 0, 0⟩ ∧ WellFormedMidi1 ⟨0x20B00740, 0, 0, 0⟩ ∧
    (7 ∉ sequenceControllers) ∧ WellFormedMidi1 ⟨0x20C00700, 0, 0, 0⟩ := by decide

/-! ## C10 -/

/-- The general MIDI 1 factory with fields of an arbitrary packet. -/
theorem C10_layout (p : Packet) (k d1 d2 : Byte) (hk : p.status &&& 0xF0 = k) (h1 : d1.toNat < 128)
    (h2 : d2.toNat < 128) :
    Midi1Layout (makeMidi1 p.group k (p.status &&& 0x0F) d1 d2) p.group.toNat (p.status.toNat / 16)
      (p.status.toNat % 16) d1.toNat d2.toNat := by
  have e := toNat_andF0 p.status
  have hb := p.status.isLt
  rw [hk] at e
  have h := C12_make p.group k (p.status &&& 0x0F) d1 d2 (by omega)
  have hg : p.group.toNat < 16 := p.group_lt
  rw [toNat_and0F, Nat.mod_eq_of_lt hg, Nat.mod_mod, Nat.mod_eq_of_lt h1, Nat.mod_eq_of_lt h2,
    show k.toNat / 16 = p.status.toNat / 16 by omega] at h
  exact h

example := C10_layout ⟨0x43953C00, 0xC8000000, 0, 0⟩ 0x90 0x3C 0x64 (by decide) (by decide) (by decide)

/-- The cases of `asMidi1`. -/
theorem asMidi1_cases (p : Packet) :
    (p.status.toNat / 16 < 8 ∨ p.status.toNat / 16 = 15 → asMidi1 p = none) ∧
    (p.status.toNat / 16 = 8 → asMidi1 p = if midi2Byte4 p = 0 then
      some (makeMidi1 p.group 0x80 (p.status &&& 0x0F) (midi2Byte3 p)
        (velocityAs7 ((midi2Data p >>> 16).setWidth 16))) else none) ∧
    (p.status.toNat / 16 = 9 → asMidi1 p = if midi2Byte4 p = 0 then
      some (makeMidi1 p.group 0x90 (p.status &&& 0x0F) (midi2Byte3 p)
        (velocityAs7 (if velocityAs7 ((midi2Data p >>> 16).setWidth 16) = 0 then velocityOf7 1 else
          (midi2Data p >>> 16).setWidth 16))) else none) ∧
    (p.status.toNat / 16 = 10 → asMidi1 p =
      some (makeMidi1 p.group 0xA0 (p.status &&& 0x0F) (midi2Byte3 p) (controllerAs7 (midi2Data p)))) ∧
    (p.status.toNat / 16 = 11 → asMidi1 p = if untranslatedControllers.contains (midi2Byte3 p) then none else
      some (makeMidi1 p.group 0xB0 (p.status &&& 0x0F) (midi2Byte3 p) (controllerAs7 (midi2Data p)))) ∧
    (p.status.toNat / 16 = 12 → asMidi1 p = if midi2Byte4 p &&& 1 = 0 then
      some (makeMidi1 p.group 0xC0 (p.status &&& 0x0F) ((midi2Data p >>> 24).setWidth 8) 0) else none) ∧
    (p.status.toNat / 16 = 13 → asMidi1 p =
      some (makeMidi1 p.group 0xD0 (p.status &&& 0x0F) (controllerAs7 (midi2Data p)) 0)) ∧
    (p.status.toNat / 16 = 14 → asMidi1 p =
      some (makeMidi1 p.group 0xE0 (p.status &&& 0x0F) ((pitchBendAs14 (midi2Data p) &&& 0x7F).setWidth 8)
        (((pitchBendAs14 (midi2Data p) >>> 7) &&& 0x7F).setWidth 8))) := by
  have hst : ∀ k : Byte, k.toNat % 16 = 0 → (midi2Status p = k ↔ p.status.toNat / 16 = k.toNat / 16) :=
    fun k hk => status_nibble p.status k hk
  unfold asMidi1
  refine ⟨fun o => ?_, fun o => ?_, fun o => ?_, fun o => ?_, fun o => ?_, fun o => ?_, fun o => ?_, fun o => ?_⟩
  · have m : ∀ k : Byte, 8 ≤ k.toNat / 16 → k.toNat / 16 ≠ 15 → ¬ midi2Status p = k := by
      intro k hk hk' h
      have e : (midi2Status p).toNat = _ := toNat_andF0 p.status
      rw [h] at e
      omega
    rw [if_neg (m _ (by decide) (by decide)), if_neg (m _ (by decide) (by decide)),
      if_neg (m _ (by decide) (by decide)), if_neg (m _ (by decide) (by decide)),
      if_neg (m _ (by decide) (by decide)), if_neg (m _ (by decide) (by decide)),
      if_neg (m _ (by decide) (by decide))]
  · rw [(hst 0x80 rfl).2 o, if_pos (by decide)]; rfl
  · rw [(hst 0x90 rfl).2 o, if_neg (by decide), if_pos (by decide)]; rfl
  · rw [(hst 0xA0 rfl).2 o, if_neg (by decide), if_neg (by decide), if_pos (by decide)]; rfl
  · rw [(hst 0xB0 rfl).2 o, if_neg (by decide), if_neg (by decide), if_neg (by decide), if_pos (by decide)]; rfl
  · rw [(hst 0xC0 rfl).2 o, if_neg (by decide), if_neg (by decide), if_neg (by decide), if_neg (by decide),
      if_pos (by decide)]; rfl
  · rw [(hst 0xD0 rfl).2 o, if_neg (by decide), if_neg (by decide), if_neg (by decide), if_neg (by decide),
      if_neg (by decide), if_pos (by decide)]; rfl
  · rw [(hst 0xE0 rfl).2 o, if_neg (by decide), if_neg (by decide), if_neg (by decide), if_neg (by decide),
      if_neg (by decide), if_neg (by decide), if_pos (by decide)]; rfl

/-- C10: `as_midi1_channel_voice_message` computes exactly the specified MIDI 1 message, in the same group and channel
and with the same opcode, and returns nothing exactly if there is no counterpart. -/
theorem C10_translation (p : Packet) :
    match midi1DataOfMidi2 (p.status.toNat / 16) (p.byte3.toNat % 128) (p.byte4.toNat % 128) p.w1.toNat with
    | none => asMidi1 p = none
    | some (d1, d2) => ∃ r, asMidi1 p = some r ∧
        Midi1Layout r p.group.toNat (p.status.toNat / 16) (p.status.toNat % 16) d1 d2 := by
  have hst := fun k hk => status_nibble p.status k hk
  obtain ⟨cn, c8, c9, cA, cB, cC, cD, cE⟩ := asMidi1_cases p
  have hw := p.w1.isLt
  have hs := p.status.isLt
  have m3 : (midi2Byte3 p).toNat = p.byte3.toNat % 128 := toNat_and7F _
  have m4 : (midi2Byte4 p).toNat = p.byte4.toNat % 128 := toNat_and7F _
  have e4 : midi2Byte4 p = 0 ↔ p.byte4.toNat % 128 = 0 := by
    rw [← m4]
    exact ⟨fun h => by rw [h]; rfl, fun h => BitVec.eq_of_toNat_eq h⟩
  have v16 : (velocityAs7 ((midi2Data p >>> 16).setWidth 16)).toNat = p.w1.toNat / 2 ^ 25 := by
    rw [velocityAs7, (C06_downsample_values.1 _).1]
    simp [midi2Data, Nat.shiftRight_eq_div_pow]; omega
  have v32 : (controllerAs7 (midi2Data p)).toNat = p.w1.toNat / 2 ^ 25 := (C06_downsample_values.2.1 _).1
  have h3 : (midi2Byte3 p).toNat < 128 := by omega
  have hv : p.w1.toNat / 2 ^ 25 < 128 := by omega
  have hun := untranslated_iff (midi2Byte3 p)
  rw [m3] at hun
  have L := fun k d1 d2 hk h1 h2 => C10_layout p k d1 d2 hk h1 h2
  rcases (show (p.status.toNat / 16 < 8 ∨ p.status.toNat / 16 = 15) ∨ p.status.toNat / 16 = 8 ∨
      p.status.toNat / 16 = 9 ∨ p.status.toNat / 16 = 10 ∨
      p.status.toNat / 16 = 11 ∨ p.status.toNat / 16 = 12 ∨ p.status.toNat / 16 = 13 ∨ p.status.toNat / 16 = 14 by
        omega) with o | o | o | o | o | o | o | o
  · have hn : ∀ x y z, midi1DataOfMidi2 (p.status.toNat / 16) x y z = none := by
      intro x y z
      generalize p.status.toNat / 16 = op at o
      have : op = 0 ∨ op = 1 ∨ op = 2 ∨ op = 3 ∨ op = 4 ∨ op = 5 ∨ op = 6 ∨ op = 7 ∨ op = 15 := by omega
      rcases this with h | h | h | h | h | h | h | h | h <;> subst h <;> rfl
    rw [hn]
    exact cn o
  · have l := fun d h => L 0x80 (midi2Byte3 p) d ((hst 0x80 rfl).2 o) h3 h
    rw [c8 o]
    rw [o, m3] at *
    simp only [midi1DataOfMidi2]
    by_cases hb : p.byte4.toNat % 128 = 0
    · rw [if_pos hb, if_pos (e4.2 hb)]
      refine ⟨_, rfl, ?_⟩
      rw [← v16]
      exact l _ (by omega)
    · rw [if_neg hb, if_neg (mt e4.1 hb)]
  · have l := fun d h => L 0x90 (midi2Byte3 p) d ((hst 0x90 rfl).2 o) h3 h
    rw [c9 o]
    rw [o, m3] at *
    simp only [midi1DataOfMidi2]
    by_cases hb : p.byte4.toNat % 128 = 0
    · rw [if_pos hb, if_pos (e4.2 hb)]
      refine ⟨_, rfl, ?_⟩
      have hz : velocityAs7 ((midi2Data p >>> 16).setWidth 16) = 0 ↔ p.w1.toNat / 2 ^ 25 = 0 := by
        rw [← v16]
        exact ⟨fun h => by rw [h]; rfl, fun h => BitVec.eq_of_toNat_eq h⟩
      by_cases hw0 : p.w1.toNat / 2 ^ 25 = 0
      · rw [if_pos (hz.2 hw0), (C06_round_trip_7 1 (by decide)).1, hw0]
        exact l 1 (by decide)
      · rw [if_neg (mt hz.1 hw0), show max 1 (p.w1.toNat / 2 ^ 25) = p.w1.toNat / 2 ^ 25 by omega, ← v16]
        exact l _ (by omega)
    · rw [if_neg hb, if_neg (mt e4.1 hb)]
  · have l := fun d h => L 0xA0 (midi2Byte3 p) d ((hst 0xA0 rfl).2 o) h3 h
    rw [cA o]
    rw [o, m3] at *
    simp only [midi1DataOfMidi2]
    refine ⟨_, rfl, ?_⟩
    rw [← v32]
    exact l _ (by omega)
  · have l := fun d h => L 0xB0 (midi2Byte3 p) d ((hst 0xB0 rfl).2 o) h3 h
    rw [cB o]
    rw [o, m3] at *
    simp only [midi1DataOfMidi2]
    by_cases hu : p.byte3.toNat % 128 ∈ sequenceControllers
    · rw [if_pos hu, if_pos (hun.2 hu)]
    · rw [if_neg hu, if_neg (mt hun.1 hu)]
      refine ⟨_, rfl, ?_⟩
      rw [← v32]
      exact l _ (by omega)
  · have l := fun d h => L 0xC0 d 0 ((hst 0xC0 rfl).2 o) h (by decide)
    have e1 : midi2Byte4 p &&& 1 = 0 ↔ p.byte4.toNat % 128 % 2 = 0 := by
      rw [← m4]
      generalize midi2Byte4 p = b; revert b; decide +kernel
    rw [cC o]
    rw [o] at *
    simp only [midi1DataOfMidi2]
    by_cases hb : p.byte4.toNat % 128 % 2 = 0
    · rw [if_pos hb, if_pos (e1.2 hb)]
      refine ⟨_, rfl, ?_⟩
      have ep : (((midi2Data p >>> 24).setWidth 8) &&& 0x7F : Byte).toNat = p.w1.toNat / 2 ^ 24 % 128 := by
        rw [toNat_and7F]; simp [midi2Data, Nat.shiftRight_eq_div_pow]
      have l := l (((midi2Data p >>> 24).setWidth 8) &&& 0x7F) (by omega)
      rw [ep] at l
      simp only [makeMidi1, and7F_of_lt (and7F_lt _)] at l
      exact l
    · rw [if_neg hb, if_neg (mt e1.1 hb)]
  · have l := fun d h => L 0xD0 d 0 ((hst 0xD0 rfl).2 o) h (by decide)
    rw [cD o]
    rw [o] at *
    simp only [midi1DataOfMidi2]
    refine ⟨_, rfl, ?_⟩
    rw [← v32]
    exact l _ (by omega)
  · have m7 : ∀ x : Nat, x &&& 127 = x % 128 := fun x => Nat.and_two_pow_sub_one_eq_mod x 7
    have hd := (C06_downsample_values.2.2 (midi2Data p)).1
    have el : ((pitchBendAs14 (midi2Data p) &&& 0x7F).setWidth 8 : Byte).toNat = p.w1.toNat / 2 ^ 18 % 128 := by
      rw [BitVec.toNat_setWidth, BitVec.toNat_and, pitchBendAs14, hd]
      show (_ &&& 127) % _ = _
      rw [m7, midi2Data]; omega
    have eh : (((pitchBendAs14 (midi2Data p) >>> 7) &&& 0x7F).setWidth 8 : Byte).toNat = p.w1.toNat / 2 ^ 25 := by
      rw [BitVec.toNat_setWidth, BitVec.toNat_and, BitVec.toNat_ushiftRight, pitchBendAs14, hd]
      show (_ &&& 127) % _ = _
      rw [m7, midi2Data, Nat.shiftRight_eq_div_pow]; omega
    have l := L 0xE0 ((pitchBendAs14 (midi2Data p) &&& 0x7F).setWidth 8)
      (((pitchBendAs14 (midi2Data p) >>> 7) &&& 0x7F).setWidth 8) ((hst 0xE0 rfl).2 o) (by omega) (by omega)
    rw [el, eh] at l
    rw [cE o]
    rw [o] at *
    exact ⟨_, rfl, l⟩

/-- C10: whenever `as_midi1_channel_voice_message` of a packet returns a message it is a well formed MIDI 1 channel
voice message with the same group, opcode and channel, all other words zero; a Note On stays a Note On. -/
theorem C10_well_formed (p r : Packet) (hr : asMidi1 p = some r) :
    WellFormedMidi1 r ∧ r.group = p.group ∧ r.status = p.status ∧ r.w1 = 0 ∧ r.w2 = 0 ∧ r.w3 = 0 ∧
    (r.status.toNat / 16 = 9 → isNoteOn r = true) := by
  have ht := C10_translation p
  have hw := p.w1.isLt
  cases hm : midi1DataOfMidi2 (p.status.toNat / 16) (p.byte3.toNat % 128) (p.byte4.toNat % 128) p.w1.toNat with
  | none => rw [hm] at ht; simp [hr] at ht
  | some d =>
    obtain ⟨d1, d2⟩ := d
    rw [hm] at ht
    obtain ⟨r', hr', hl⟩ := ht
    obtain rfl : r' = r := by rw [hr] at hr'; exact (Option.some.inj hr').symm
    have hdat : 8 ≤ p.status.toNat / 16 ∧ p.status.toNat / 16 ≤ 14 ∧ d1 < 128 ∧ d2 < 128 ∧
        (p.status.toNat / 16 = 12 ∨ p.status.toNat / 16 = 13 → d2 = 0) ∧ (p.status.toNat / 16 = 9 → d2 ≠ 0) := by
      revert hm
      generalize p.status.toNat / 16 = op
      unfold midi1DataOfMidi2
      split <;> intro hm
      all_goals (try split at hm)
      all_goals (first | (cases hm; done) | skip)
      all_goals (simp only [Option.some.injEq, Prod.mk.injEq] at hm; omega)
    have hg : p.group.toNat < 16 := p.group_lt
    have hs := p.status.isLt
    obtain ⟨h0, w1, w2, w3⟩ := hl
    have t : r'.type = 2 := by rw [type_eq_iff, h0]; simp; omega
    have st : r'.status = p.status := by
      apply BitVec.eq_of_toNat_eq; rw [toNat_status, h0]; omega
    have b3 : r'.byte3.toNat = d1 := by rw [toNat_byte3, h0]; omega
    have b4 : r'.byte4.toNat = d2 := by rw [toNat_byte4, h0]; omega
    refine ⟨⟨t, ?_, ?_, ?_, ?_, ?_⟩, ?_, st, w1, w2, w3, ?_⟩
    · rw [st]; exact hdat.1
    · rw [st]; exact hdat.2.1
    · rw [BitVec.lt_def, b3]; exact hdat.2.2.1
    · rw [BitVec.lt_def, b4]; exact hdat.2.2.2.1
    · intro h; rw [st] at h
      apply BitVec.eq_of_toNat_eq; rw [b4]; exact hdat.2.2.2.2.1 h
    · apply BitVec.eq_of_toNat_eq; rw [toNat_group, h0]; omega
    · intro h
      rw [(C11_meaning _).1]
      refine .inr ⟨t, h, fun h0 => ?_⟩
      rw [st] at h
      apply hdat.2.2.2.2.2 h
      rw [← b4, h0]; rfl

/-- C10: a packet that is no MIDI 2 channel voice packet has no view to translate. -/
theorem C10_rejects (p : Packet) (h : p.type ≠ 4) :
    asMidi2View p = .ok none ∧ midi2View p = .error .assertFailed := by
  refine ⟨?_, ?_⟩
  · unfold asMidi2View; rw [if_neg (by simpa [isMidi2CV, PacketType.midi2ChannelVoice] using h)]
  · unfold midi2View; rw [assert_fail (by simpa [PacketType.midi2ChannelVoice] using h)]; rfl

example : asMidi1 ⟨0x4590_3C00, 0x0100_0000, 0, 0⟩ = some ⟨0x25903C01, 0, 0, 0⟩ := by decide

/-! ## C51 -/

/-- C51: the getters return the same values for a MIDI 1 message with 7 bit data and for its MIDI 2 translation. -/
theorem C51_getters_agree (p q : Packet) (h : WellFormedMidi1 p) (hq : asMidi2 p = .ok (some q)) :
    (p.status.toNat / 16 = 8 ∨ p.status.toNat / 16 = 9 ∨ p.status.toNat / 16 = 10 → noteNr q = noteNr p) ∧
    (p.status.toNat / 16 = 8 ∨ p.status.toNat / 16 = 9 →
      noteVelocity q = noteVelocity p ∧ notePitch q = notePitch p ∧ isNoteOn q = isNoteOn p ∧
      isNoteOff q = isNoteOff p) ∧
    (p.status.toNat / 16 = 10 ∨ p.status.toNat / 16 = 11 → controllerValue q = controllerValue p) ∧
    (p.status.toNat / 16 = 11 → controllerNr q = controllerNr p) ∧
    (p.status.toNat / 16 = 12 → programValue q = programValue p) ∧
    (p.status.toNat / 16 = 13 → channelPressureValue q = channelPressureValue p) ∧
    (p.status.toNat / 16 = 14 → pitchBendValue q = pitchBendValue p) := by
  obtain ⟨ht, hlo, hhi, h3, h4, hz⟩ := h
  obtain ⟨c8, c9z, c9, cA, cB, cC, cD, cE⟩ := asMidi2_cases p h3 h4
  have hst := fun k hk => status_nibble p.status k hk
  have e3 := and7F_of_lt h3
  have e4 := and7F_of_lt h4
  have nn : noteNr p = p.byte3 := e3
  have np : notePitch p = pitch79OfNote p.byte3 := by
    unfold notePitch; rw [if_neg (by rw [ht]; simp [PacketType.midi2ChannelVoice]), nn]
  have cv : controllerValue p = controllerOf7 p.byte4 := by
    unfold controllerValue; rw [if_pos (show p.type = PacketType.midi1ChannelVoice from ht), e4]
  have A := fun v d w => C13_accessors p.group (p.status &&& 0x0F) p.byte3 0 0 v d w h3
  have bo : ∀ (x y : Bool), (x = true ↔ y = true) → x = y := by decide
  have nop : ∀ v : U16, notePitch (makeMidi2NoteOff p.group (p.status &&& 0x0F) p.byte3 v 0 0) =
      pitch79OfNote p.byte3 := by
    intro v
    unfold notePitch
    rw [if_neg (by rw [makeMidi2NoteOff, byte4_midi2Message]; simp), (A v 0 0).2.1.1]
  have off : ∀ v : U16, isNoteOff (makeMidi2NoteOff p.group (p.status &&& 0x0F) p.byte3 v 0 0) = true ∧
      isNoteOn (makeMidi2NoteOff p.group (p.status &&& 0x0F) p.byte3 v 0 0) = false := by
    intro v
    have hf : isNoteOff (makeMidi2NoteOff p.group (p.status &&& 0x0F) p.byte3 v 0 0) = true := by
      rw [(C11_meaning _).2]
      refine .inl ⟨.inr (type_midi2Message ..), ?_⟩
      rw [makeMidi2NoteOff, status_midi2Message, toNat_stat]
      simp only [CVStatus.noteOff]; simp; omega
    refine ⟨hf, ?_⟩
    have := (C11_exclusive (makeMidi2NoteOff p.group (p.status &&& 0x0F) p.byte3 v 0 0)).1
    rw [hf] at this
    simpa using this
  rcases (show p.status.toNat / 16 = 8 ∨ p.status.toNat / 16 = 9 ∨ p.status.toNat / 16 = 10 ∨
      p.status.toNat / 16 = 11 ∨ p.status.toNat / 16 = 12 ∨ p.status.toNat / 16 = 13 ∨ p.status.toNat / 16 = 14 by
        omega) with o | o | o | o | o | o | o
  · rw [c8 o] at hq; obtain rfl := Option.some.inj (Except.ok.inj hq)
    have vp : noteVelocity p = velocityOf7 p.byte4 := by
      unfold noteVelocity
      rw [if_neg (by rw [ht]; simp [PacketType.midi2ChannelVoice]), if_neg, e4]
      rintro ⟨-, hh, -⟩
      rw [hst 0x90 rfl] at hh; rw [o] at hh; simp at hh
    have pf : isNoteOff p = true := by rw [(C11_meaning p).2]; exact .inl ⟨.inl ht, o⟩
    have pn : isNoteOn p = false := by
      have := (C11_exclusive p).1; rw [pf] at this; simpa using this
    have A' := A (velocityOf7 p.byte4) 0 0
    refine ⟨fun _ => ?_, fun _ => ⟨?_, ?_, ?_, ?_⟩, fun _ => by omega, fun _ => by omega, fun _ => by omega,
      fun _ => by omega, fun _ => by omega⟩
    · rw [nn]; exact A'.2.1.1
    · rw [vp]; exact A'.2.1.2.1
    · rw [nop, np]
    · rw [(off _).2, pn]
    · rw [(off _).1, pf]
  · by_cases hv : p.byte4 = 0
    · rw [c9z o hv] at hq; obtain rfl := Option.some.inj (Except.ok.inj hq)
      have vp : noteVelocity p = velocityOf7 64 := by
        unfold noteVelocity
        rw [if_neg (by rw [ht]; simp [PacketType.midi2ChannelVoice]), if_pos]
        exact ⟨ht, (hst 0x90 rfl).2 o, hv⟩
      have pf : isNoteOff p = true := by rw [(C11_meaning p).2]; exact .inr ⟨ht, o, hv⟩
      have pn : isNoteOn p = false := by
        have := (C11_exclusive p).1; rw [pf] at this; simpa using this
      have A' := A (velocityOf7 64) 0 0
      refine ⟨fun _ => ?_, fun _ => ⟨?_, ?_, ?_, ?_⟩, fun _ => by omega, fun _ => by omega, fun _ => by omega,
        fun _ => by omega, fun _ => by omega⟩
      · rw [nn]; exact A'.2.1.1
      · rw [vp]; exact A'.2.1.2.1
      · rw [nop, np]
      · rw [(off _).2, pn]
      · rw [(off _).1, pf]
    · rw [c9 o hv] at hq; obtain rfl := Option.some.inj (Except.ok.inj hq)
      have vp : noteVelocity p = velocityOf7 p.byte4 := by
        unfold noteVelocity
        rw [if_neg (by rw [ht]; simp [PacketType.midi2ChannelVoice]), if_neg, e4]
        rintro ⟨-, -, hh⟩
        exact hv hh
      have pn : isNoteOn p = true := by rw [(C11_meaning p).1]; exact .inr ⟨ht, o, hv⟩
      have pf : isNoteOff p = false := by
        have := (C11_exclusive p).1; rw [pn] at this; simpa using this
      have qn : isNoteOn (makeMidi2NoteOn p.group (p.status &&& 0x0F) p.byte3 (velocityOf7 p.byte4)) = true := by
        rw [(C11_meaning _).1]
        refine .inl ⟨type_midi2Message .., ?_⟩
        rw [makeMidi2NoteOn, status_midi2Message, toNat_stat]
        simp only [CVStatus.noteOn]; simp; omega
      have qf : isNoteOff (makeMidi2NoteOn p.group (p.status &&& 0x0F) p.byte3 (velocityOf7 p.byte4)) = false := by
        have := (C11_exclusive (makeMidi2NoteOn p.group (p.status &&& 0x0F) p.byte3 (velocityOf7 p.byte4))).1
        rw [qn] at this; simpa using this
      have A' := A (velocityOf7 p.byte4) 0 0
      refine ⟨fun _ => ?_, fun _ => ⟨?_, ?_, ?_, ?_⟩, fun _ => by omega, fun _ => by omega, fun _ => by omega,
        fun _ => by omega, fun _ => by omega⟩
      · rw [nn, noteNr, makeMidi2NoteOn, byte3_midi2Message, e3]
      · rw [vp]; exact A'.2.2.2.1.1
      · rw [np]; exact A'.2.2.2.1.2
      · rw [qn, pn]
      · rw [qf, pf]
  · rw [cA o] at hq; obtain rfl := Option.some.inj (Except.ok.inj hq)
    have A' := A 0 0 (controllerOf7 p.byte4)
    refine ⟨fun _ => ?_, fun _ => by omega, fun _ => ?_, fun _ => by omega, fun _ => by omega,
      fun _ => by omega, fun _ => by omega⟩
    · rw [nn]; exact A'.2.2.2.2.2.1.1
    · rw [cv]; exact A'.2.2.2.2.2.1.2
  · have hu : ¬ untranslatedControllers.contains p.byte3 = true := by
      intro hx; rw [cB o, if_pos hx] at hq; simp at hq
    rw [cB o, if_neg hu] at hq; obtain rfl := Option.some.inj (Except.ok.inj hq)
    have A' := A 0 0 (controllerOf7 p.byte4)
    refine ⟨fun _ => by omega, fun _ => by omega, fun _ => ?_, fun _ => ?_, fun _ => by omega,
      fun _ => by omega, fun _ => by omega⟩
    · rw [cv]; exact A'.2.2.2.2.1.2
    · rw [show controllerNr p = p.byte3 from e3]; exact A'.2.2.2.2.1.1
  · rw [cC o] at hq; obtain rfl := Option.some.inj (Except.ok.inj hq)
    have A' := A 0 0 0
    refine ⟨fun _ => by omega, fun _ => by omega, fun _ => by omega, fun _ => by omega, fun _ => ?_,
      fun _ => by omega, fun _ => by omega⟩
    have : programValue p = p.byte3 := by unfold programValue; rw [if_pos (show p.type = PacketType.midi1ChannelVoice from ht), e3]
    rw [this]; exact A'.2.2.2.2.2.2.2.2.2.1
  · rw [cD o] at hq; obtain rfl := Option.some.inj (Except.ok.inj hq)
    have A' := A 0 0 (controllerOf7 p.byte3)
    refine ⟨fun _ => by omega, fun _ => by omega, fun _ => by omega, fun _ => by omega, fun _ => by omega,
      fun _ => ?_, fun _ => by omega⟩
    have : channelPressureValue p = controllerOf7 p.byte3 := by unfold channelPressureValue; rw [if_pos (show p.type = PacketType.midi1ChannelVoice from ht), e3]
    rw [this]; exact A'.2.2.2.2.2.2.1
  · obtain ⟨pb, hpb, -⟩ := C06_round_trip_14 _ (value14_lt _ _ h3 h4)
    rw [cE o, hpb] at hq; obtain rfl := Option.some.inj (Except.ok.inj hq)
    have A' := A 0 0 pb
    refine ⟨fun _ => by omega, fun _ => by omega, fun _ => by omega, fun _ => by omega, fun _ => by omega,
      fun _ => by omega, fun _ => ?_⟩
    have : pitchBendValue p = .ok pb := by unfold pitchBendValue; rw [if_pos (show p.type = PacketType.midi1ChannelVoice from ht), hpb]
    rw [this]; exact A'.2.2.2.2.2.2.2.1

example := C51_getters_agree ⟨0x23903C5A, 0, 0, 0⟩ ⟨0x43903C00, 0xB4D30000, 0, 0⟩ (by decide) (by decide)

/-- C51: value ranges. Note and controller numbers are 7 bit for every packet; the program is 7 bit for every channel
voice packet; the velocity and controller values of MIDI 1 messages are the scaled 7 bit data byte, and the velocity of a
note on with velocity zero, which is a note off, is the centre. -/
theorem C51_ranges (p : Packet) :
    noteNr p < 128 ∧ controllerNr p < 128 ∧ (p.type = 2 ∨ p.type = 4 → programValue p < 128) ∧
    (p.type = 2 → controllerValue p = controllerOf7 (p.byte4 &&& 0x7F)) ∧
    (p.type = 2 → channelPressureValue p = controllerOf7 (p.byte3 &&& 0x7F)) ∧
    (p.type = 2 → noteVelocity p = velocityOf7 (if p.status.toNat / 16 = 9 ∧ p.byte4 = 0 then 64 else p.byte4 &&& 0x7F)) := by
  refine ⟨and7F_lt _, and7F_lt _, ?_, ?_, ?_, ?_⟩
  · intro h
    unfold programValue
    by_cases h2 : p.type = 2
    · rw [if_pos (show p.type = PacketType.midi1ChannelVoice from h2)]; exact and7F_lt _
    · have h4 : p.type = 4 := h.resolve_left h2
      rw [if_neg (show ¬ p.type = PacketType.midi1ChannelVoice from h2),
        if_pos (show p.type = PacketType.midi2ChannelVoice from h4)]
      have : (((p.w1 >>> 24) &&& 0x7F).setWidth 8 : Byte) = (p.w1 >>> 24).setWidth 8 &&& 0x7F := by bits
      rw [this]; exact and7F_lt _
  · intro h; unfold controllerValue; rw [if_pos (show p.type = PacketType.midi1ChannelVoice from h)]
  · intro h; unfold channelPressureValue; rw [if_pos (show p.type = PacketType.midi1ChannelVoice from h)]
  · intro h
    have hst : ∀ s : Byte, (s &&& 0xF0 = (0x90 : Byte)) ↔ s.toNat / 16 = 9 := by decide +kernel
    unfold noteVelocity
    rw [if_neg (show ¬ p.type = PacketType.midi2ChannelVoice by rw [h]; decide), apply_ite velocityOf7]
    simp only [hst, h, PacketType.midi1ChannelVoice, true_and]

/-- C51: the pitch bend getter is defined for every MIDI 1 message with 7 bit data, but shifts a negative `int` value
out of range (undefined behaviour) for data bytes of 0x80 and above in the second position. -/
theorem C51_pitch_bend_defined (p : Packet) (ht : p.type = 2) :
    (∃ v, pitchBendValue p = .ok v) ↔ p.byte4 < 128 := by
  unfold pitchBendValue
  rw [if_pos (show p.type = PacketType.midi1ChannelVoice from ht)]
  constructor
  · rintro ⟨v, hv⟩
    by_contra hb
    have hb' : 128 ≤ p.byte4.toNat := by
      rw [BitVec.lt_def] at hb; simp at hb; omega
    have e1 : (p.byte4.setWidth 16 <<< 7 : U16).toNat = p.byte4.toNat * 128 := by
      have := p.byte4.isLt
      simp [Nat.shiftLeft_eq]; omega
    have hle : 2 ^ 14 ≤ (p.byte3.setWidth 16 ||| (p.byte4.setWidth 16 <<< 7) : U16).toNat := by
      rw [BitVec.toNat_or]
      have := @Nat.right_le_or (p.byte3.setWidth 16 : U16).toNat (p.byte4.setWidth 16 <<< 7 : U16).toNat
      omega
    rw [pitchBendOf14, C06_14_to_32_out_of_range _ hle] at hv
    cases hv
  · intro h4
    have hlt : (p.byte3.setWidth 16 ||| (p.byte4.setWidth 16 <<< 7) : U16).toNat < 2 ^ 14 := by
      rw [BitVec.lt_def] at h4
      have h4' : p.byte4.toNat < 128 := by simpa using h4
      have := p.byte3.isLt
      rw [BitVec.toNat_or]
      refine Nat.or_lt_two_pow ?_ ?_
      · simp; omega
      · simp [Nat.shiftLeft_eq]; omega
    obtain ⟨pb, hpb, -⟩ := C06_round_trip_14 _ hlt
    exact ⟨pb, hpb⟩

example : ∃ q, WellFormedMidi1 ⟨0x23E15A12, 0, 0, 0⟩ ∧ asMidi2 ⟨0x23E15A12, 0, 0, 0⟩ = .ok (some q) :=
  ⟨⟨0x43E10000, 0x25680000, 0, 0⟩, by decide⟩

end Midi
