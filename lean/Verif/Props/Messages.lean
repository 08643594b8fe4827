import Verif.Lemmas.Messages
import Verif.Spec.Messages

/-!
# Properties C11, C12, C13, C14: note predicates, message factories and views
-/

namespace Midi
open Packet

/-! ## C11 -/

/-- C11: what the two predicates mean. A Note On is a MIDI 2 message with opcode 9 or a MIDI 1 message with opcode 9 and
a velocity byte other than zero; a Note Off is a message of either protocol with opcode 8, or a MIDI 1 message with
opcode 9 and velocity byte zero. -/
theorem C11_meaning (p : Packet) :
    (isNoteOn p = true ↔
      (p.type = 4 ∧ p.status.toNat / 16 = 9) ∨ (p.type = 2 ∧ p.status.toNat / 16 = 9 ∧ p.byte4 ≠ 0)) ∧
    (isNoteOff p = true ↔
      ((p.type = 2 ∨ p.type = 4) ∧ p.status.toNat / 16 = 8) ∨
      (p.type = 2 ∧ p.status.toNat / 16 = 9 ∧ p.byte4 = 0)) := by
  have h9 : (p.status &&& 0xF0) = 0x90 ↔ p.status.toNat / 16 = 9 := by
    generalize p.status = s; revert s; decide +kernel
  have h8 : p.status &&& 0xF0 = 0x80 ↔ p.status.toNat / 16 = 8 := by
    generalize p.status = s; revert s; decide +kernel
  unfold isNoteOn isNoteOff isCVWithStatus isChannelVoice
  simp only [Bool.and_eq_true, beq_iff_eq, Bool.or_eq_true, h9, h8, PacketType.midi1ChannelVoice,
    PacketType.midi2ChannelVoice]
  generalize p.type = t
  generalize p.byte4 = v
  generalize p.status.toNat / 16 = o at h9 h8 ⊢
  have : (2 : Byte) ≠ 4 := by decide
  by_cases t1 : t = 2
  · subst t1
    by_cases o8 : o = 8 <;> by_cases o9 : o = 9 <;> by_cases hv : v = 0 <;> simp_all
  · by_cases t2 : t = 4
    · subst t2
      by_cases o8 : o = 8 <;> by_cases o9 : o = 9 <;> by_cases hv : v = 0 <;> simp_all
    · simp_all

/-- C11: `is_note_on_message` and `is_note_off_message` never hold together, and each implies a channel voice
message. -/
theorem C11_exclusive (p : Packet) :
    ¬ (isNoteOn p = true ∧ isNoteOff p = true) ∧
    (isNoteOn p = true → p.isChannelVoice = true) ∧ (isNoteOff p = true → p.isChannelVoice = true) := by
  have hcv : (p.type = 2 ∨ p.type = 4) → p.isChannelVoice = true := by
    intro h
    simpa [isChannelVoice, PacketType.midi1ChannelVoice, PacketType.midi2ChannelVoice] using h
  rw [(C11_meaning p).1, (C11_meaning p).2]
  refine ⟨?_, fun h => hcv (by tauto), fun h => hcv (by tauto)⟩
  rintro ⟨⟨h1, h2⟩ | ⟨h1, h2, h3⟩, ⟨h4, h5⟩ | ⟨h4, h5, h6⟩⟩
  · omega
  · rw [h1] at h4; exact absurd h4 (by decide)
  · omega
  · exact h3 h6

/-- C11: every channel voice message with opcode 8 or 9 satisfies exactly one of the predicates. -/
theorem C11_exactly_one (p : Packet) (ht : p.type = 2 ∨ p.type = 4)
    (hs : p.status.toNat / 16 = 8 ∨ p.status.toNat / 16 = 9) : isNoteOn p = !isNoteOff p := by
  have hx := C11_exclusive p
  have hm := C11_meaning p
  rcases ht with t | t <;> rcases hs with s | s <;> by_cases hv : p.byte4 = 0 <;>
    (cases h1 : isNoteOn p <;> cases h2 : isNoteOff p <;> simp_all)

example : isNoteOn ⟨0x20903C40, 0, 0, 0⟩ = true ∧ isNoteOff ⟨0x20903C00, 0, 0, 0⟩ = true ∧
    isNoteOn ⟨0x40903C00, 0, 0, 0⟩ = true ∧ isNoteOff ⟨0x40803C00, 0, 0, 0⟩ = true := by decide

/-! ## C12 -/

/-- C12: the view of a MIDI 1 channel voice message returns the fields of the message layout. -/
theorem C12_view_reads_layout (p : Packet) (g o c d1 d2 : Nat) (h : Midi1Layout p g o c d1 d2)
    (hg : g < 16) (ho : o < 16) (hc : c < 16) (h1 : d1 < 128) (h2 : d2 < 128) :
    asMidi1View p = .ok (some p) ∧ p.group.toNat = g ∧ (midi1Status p).toNat = o * 16 ∧
    (midi1Channel p).toNat = c ∧ p.channel = .ok (midi1Channel p) ∧
    (midi1Data1 p).toNat = d1 ∧ (midi1Data2 p).toNat = d2 ∧ (midi1Value14 p).toNat = d1 + 128 * d2 := by
  obtain ⟨h, -⟩ := h
  have ht : p.type = PacketType.midi1ChannelVoice := by
    rw [type_eq_iff]; simp only [PacketType.midi1ChannelVoice]; simp; omega
  have hcv : isMidi1CV p = true := by simp [isMidi1CV, ht]
  refine ⟨?_, ?_, ?_, ?_, ?_, ?_, ?_, ?_⟩
  · unfold asMidi1View midi1View; rw [if_pos hcv, assert_ok hcv]; rfl
  · rw [toNat_group]; omega
  · rw [midi1Status, toNat_andF0, toNat_status]; omega
  · rw [midi1Channel, toNat_and0F, toNat_status]; omega
  · unfold Packet.channel; rw [assert_ok (by simp [hasChannel, ht])]; rfl
  · rw [midi1Data1, toNat_and7F, toNat_byte3]; omega
  · rw [midi1Data2, toNat_and7F, toNat_byte4]; omega
  · rw [midi1Value14, midi1Data1, midi1Data2, toNat_of14, toNat_byte3, toNat_byte4]; omega

example := C12_view_reads_layout ⟨0x23953C64, 0, 0, 0⟩ 3 9 5 0x3C 0x64 ⟨rfl, rfl, rfl, rfl⟩ (by decide) (by decide) (by decide) (by decide) (by decide)

/-- C12: the general factory stores each argument in its field, for all arguments: values out of range are reduced
to the width of their field and never reach another one. -/
theorem C12_make (g s c d1 d2 : Byte) (hs : s.toNat % 16 = 0) :
    Midi1Layout (makeMidi1 g s c d1 d2) (g.toNat % 16) (s.toNat / 16) (c.toNat % 16) (d1.toNat % 128)
      (d2.toNat % 128) := by
  have e : s ||| (c &&& 0x0F) = (s &&& 0xF0) ||| (c &&& 0x0F) := by
    have : s &&& 0xF0 = s := by revert hs; revert s; decide +kernel
    rw [this]
  unfold Midi1Layout makeMidi1
  rw [midi1Message_eq, e]
  refine ⟨?_, rfl, rfl, rfl⟩
  show (wordOf _ _ _ _).toNat = _
  rw [toNat_wordOf, toNat_typ _ _ (by decide), toNat_stat, toNat_and7F, toNat_and7F]
  simp; omega

example := C12_make 3 0x90 5 0x3C 0x64 (by decide)

/-- C12: the factories for the seven message kinds, for all values and in range group, channel and 7 bit numbers.
Velocities and controller values are reduced to their upper 7 bits, pitch bend to its upper 14 bits. -/
theorem C12_factories (g c n : Byte) (v : U16) (w : Word) (hg : g < 16) (hc : c < 16) (hn : n < 128) :
    Midi1Layout (makeMidi1NoteOff g c n v) g.toNat 0x8 c.toNat n.toNat (v.toNat / 2 ^ 9) ∧
    Midi1Layout (makeMidi1NoteOn g c n v) g.toNat 0x9 c.toNat n.toNat (v.toNat / 2 ^ 9) ∧
    Midi1Layout (makeMidi1PolyPressure g c n w) g.toNat 0xA c.toNat n.toNat (w.toNat / 2 ^ 25) ∧
    Midi1Layout (makeMidi1ControlChange g c n w) g.toNat 0xB c.toNat n.toNat (w.toNat / 2 ^ 25) ∧
    Midi1Layout (makeMidi1ProgramChange g c n) g.toNat 0xC c.toNat n.toNat 0 ∧
    Midi1Layout (makeMidi1ChannelPressure g c w) g.toNat 0xD c.toNat (w.toNat / 2 ^ 25) 0 ∧
    Midi1Layout (makeMidi1PitchBend g c w) g.toNat 0xE c.toNat (w.toNat / 2 ^ 18 % 128) (w.toNat / 2 ^ 25) := by
  have hg' : g.toNat < 16 := hg
  have hc' : c.toNat < 16 := hc
  have hn' : n.toNat < 128 := hn
  have hv := v.isLt
  have hw := w.isLt
  have e16 : (downsample16to7 v).toNat = v.toNat / 2 ^ 9 := by
    simp [downsample16to7, BitVec.toNat_ushiftRight, Nat.shiftRight_eq_div_pow]; omega
  have e32 : (downsample32to7 w).toNat = w.toNat / 2 ^ 25 := by
    simp [downsample32to7, BitVec.toNat_ushiftRight, Nat.shiftRight_eq_div_pow]; omega
  have m7 : ∀ x : Nat, x &&& 127 = x % 128 := fun x => Nat.and_two_pow_sub_one_eq_mod x 7
  have el : ((pitchBendAs14 w &&& 0x7F).setWidth 8 : Byte).toNat = w.toNat / 2 ^ 18 % 128 := by
    simp [pitchBendAs14, downsample32to14, BitVec.toNat_ushiftRight, Nat.shiftRight_eq_div_pow, m7]; try omega
  have eh : (((pitchBendAs14 w >>> 7) &&& 0x7F).setWidth 8 : Byte).toNat = w.toNat / 2 ^ 25 := by
    simp [pitchBendAs14, downsample32to14, BitVec.toNat_ushiftRight, Nat.shiftRight_eq_div_pow, m7]; omega
  refine ⟨?_, ?_, ?_, ?_, ?_, ?_, ?_⟩
  · have h := C12_make g CVStatus.noteOff c n (velocityAs7 v) (by decide)
    simp only [velocityAs7, e16, Nat.mod_eq_of_lt hg', Nat.mod_eq_of_lt hc', Nat.mod_eq_of_lt hn'] at h
    rwa [Nat.mod_eq_of_lt (show v.toNat / 2 ^ 9 < 128 by omega)] at h
  · have h := C12_make g CVStatus.noteOn c n (velocityAs7 v) (by decide)
    simp only [velocityAs7, e16, Nat.mod_eq_of_lt hg', Nat.mod_eq_of_lt hc', Nat.mod_eq_of_lt hn'] at h
    rwa [Nat.mod_eq_of_lt (show v.toNat / 2 ^ 9 < 128 by omega)] at h
  · have h := C12_make g CVStatus.polyPressure c n (controllerAs7 w) (by decide)
    simp only [controllerAs7, e32, Nat.mod_eq_of_lt hg', Nat.mod_eq_of_lt hc', Nat.mod_eq_of_lt hn'] at h
    rwa [Nat.mod_eq_of_lt (show w.toNat / 2 ^ 25 < 128 by omega)] at h
  · have h := C12_make g CVStatus.controlChange c n (controllerAs7 w) (by decide)
    simp only [controllerAs7, e32, Nat.mod_eq_of_lt hg', Nat.mod_eq_of_lt hc', Nat.mod_eq_of_lt hn'] at h
    rwa [Nat.mod_eq_of_lt (show w.toNat / 2 ^ 25 < 128 by omega)] at h
  · have h := C12_make g CVStatus.programChange c n 0 (by decide)
    simp only [Nat.mod_eq_of_lt hg', Nat.mod_eq_of_lt hc', Nat.mod_eq_of_lt hn'] at h
    exact h
  · have h := C12_make g CVStatus.channelPressure c (controllerAs7 w) 0 (by decide)
    simp only [controllerAs7, e32, Nat.mod_eq_of_lt hg', Nat.mod_eq_of_lt hc'] at h
    rwa [Nat.mod_eq_of_lt (show w.toNat / 2 ^ 25 < 128 by omega)] at h
  · have h := C12_make g CVStatus.pitchBend c ((pitchBendAs14 w &&& 0x7F).setWidth 8)
      (((pitchBendAs14 w >>> 7) &&& 0x7F).setWidth 8) (by decide)
    simp only [el, eh, Nat.mod_eq_of_lt hg', Nat.mod_eq_of_lt hc'] at h
    rwa [Nat.mod_eq_of_lt (show w.toNat / 2 ^ 25 < 128 by omega), Nat.mod_mod] at h

/-- C12: packets of another type have no MIDI 1 view, and forcing one fails the assertion. -/
theorem C12_view_rejects (p : Packet) (h : p.type ≠ 2) :
    asMidi1View p = .ok none ∧ midi1View p = .error .assertFailed ∧ midi1OfPacket p = .error .assertFailed := by
  have hcv : isMidi1CV p = false := by simpa [isMidi1CV, PacketType.midi1ChannelVoice] using h
  refine ⟨by simp [asMidi1View, hcv], ?_, ?_⟩
  · unfold midi1View; rw [assert_fail hcv]; rfl
  · unfold midi1OfPacket; rw [assert_fail (by simpa [isMidi1CV] using hcv)]; rfl

example : Midi1Layout (makeMidi1NoteOn 3 4 60 0x8000) 3 9 4 60 64 := by unfold Midi1Layout; decide

/-! ## C13 -/

/-- C13: the view of a MIDI 2 channel voice message returns the fields of the message layout. The view's `byte3` and
`byte4` are reduced to 7 bits, the packet's own accessor returns all 8 bits. -/
theorem C13_view_reads_layout (p : Packet) (g o c i1 i2 d : Nat) (h : Midi2Layout p g o c i1 i2 d)
    (hg : g < 16) (ho : o < 16) (hc : c < 16) (h1 : i1 < 256) (h2 : i2 < 256) :
    asMidi2View p = .ok (some p) ∧ p.group.toNat = g ∧ (midi2Status p).toNat = o * 16 ∧
    (midi2Channel p).toNat = c ∧ p.channel = .ok (midi2Channel p) ∧
    (midi2Byte3 p).toNat = i1 % 128 ∧ (midi2Byte4 p).toNat = i2 % 128 ∧
    p.byte3.toNat = i1 ∧ p.byte4.toNat = i2 ∧ (midi2Data p).toNat = d := by
  obtain ⟨h, hd, -⟩ := h
  have ht : p.type = PacketType.midi2ChannelVoice := by
    rw [type_eq_iff]; simp only [PacketType.midi2ChannelVoice]; simp; omega
  have hcv : isMidi2CV p = true := by simp [isMidi2CV, ht]
  refine ⟨?_, ?_, ?_, ?_, ?_, ?_, ?_, ?_, ?_, hd⟩
  · unfold asMidi2View midi2View; rw [if_pos hcv, assert_ok (by simp [ht])]; rfl
  · rw [toNat_group]; omega
  · rw [midi2Status, toNat_andF0, toNat_status]; omega
  · rw [midi2Channel, toNat_and0F, toNat_status]; omega
  · unfold Packet.channel; rw [assert_ok (by simp [hasChannel, ht])]; rfl
  · rw [midi2Byte3, toNat_and7F, toNat_byte3]; omega
  · rw [midi2Byte4, toNat_and7F, toNat_byte4]; omega
  · rw [toNat_byte3]; omega
  · rw [toNat_byte4]; omega

example := C13_view_reads_layout ⟨0x43953C02, 0x12345678, 0, 0⟩ 3 9 5 0x3C 2 0x12345678 ⟨rfl, rfl, rfl, rfl⟩ (by decide) (by decide) (by decide) (by decide) (by decide)

/-- C13: the general factory stores each argument in its field, for all arguments. -/
theorem C13_make (g s c i1 i2 : Byte) (d : Word) :
    Midi2Layout (midi2Message g s c i1 i2 d) (g.toNat % 16) (s.toNat / 16) (c.toNat % 16) i1.toNat i2.toNat
      d.toNat := by
  unfold Midi2Layout
  rw [midi2Message_eq]
  refine ⟨?_, rfl, rfl, rfl⟩
  show (wordOf _ _ _ _).toNat = _
  rw [toNat_wordOf, toNat_typ _ _ (by decide), toNat_stat]
  simp; omega

/-- `noteData` is velocity in the upper and attribute data in the lower half. -/
theorem toNat_noteData (v a : U16) : (noteData v a).toNat = v.toNat * 2 ^ 16 + a.toNat := by
  have h1 := v.isLt
  have h2 := a.isLt
  have e1 : (v.setWidth 32 <<< 16 : Word).toNat = v.toNat * 2 ^ 16 := by
    simp [Nat.shiftLeft_eq]; omega
  have e2 : (a.setWidth 32 : Word).toNat = a.toNat := by simp; omega
  unfold noteData
  rw [toNat_or_disjoint _ _ (by bits) (by rw [e1, e2]; omega), e1, e2]

/-- C13: the note message factories. -/
theorem C13_note_factories (g c n a : Byte) (v d : U16) (hg : g < 16) (hc : c < 16) (hn : n < 128) :
    Midi2Layout (makeMidi2NoteOff g c n v a d) g.toNat 0x8 c.toNat n.toNat a.toNat (v.toNat * 2 ^ 16 + d.toNat) ∧
    Midi2Layout (makeMidi2NoteOn g c n v) g.toNat 0x9 c.toNat n.toNat 0 (v.toNat * 2 ^ 16) ∧
    Midi2Layout (makeMidi2NoteOnPitch g c n v d) g.toNat 0x9 c.toNat n.toNat 3 (v.toNat * 2 ^ 16 + d.toNat) ∧
    Midi2Layout (makeMidi2NoteOnAttribute g c n v a d) g.toNat 0x9 c.toNat n.toNat a.toNat
      (v.toNat * 2 ^ 16 + d.toNat) := by
  have hg' : g.toNat < 16 := hg
  have hc' : c.toNat < 16 := hc
  refine ⟨?_, ?_, ?_, ?_⟩
  · have h := C13_make g CVStatus.noteOff c (n &&& 0x7F) a (noteData v d)
    rw [toNat_noteData, Nat.mod_eq_of_lt hg', Nat.mod_eq_of_lt hc'] at h
    have e : (n &&& 0x7F).toNat = n.toNat := by rw [and7F_of_lt hn]
    rwa [e] at h
  · have h := C13_make g CVStatus.noteOn c n 0 (noteData v 0)
    rw [toNat_noteData, Nat.mod_eq_of_lt hg', Nat.mod_eq_of_lt hc'] at h
    have e : noteData v 0 = v.setWidth 32 <<< 16 := by simp [noteData]
    rw [e] at h
    simp only [show (CVStatus.noteOn).toNat / 16 = 9 from rfl, show (0 : Byte).toNat = 0 from rfl,
      show (0 : U16).toNat = 0 from rfl, Nat.add_zero] at h
    exact h
  · have h := C13_make g CVStatus.noteOn c n attributePitch79 (noteData v d)
    rwa [toNat_noteData, Nat.mod_eq_of_lt hg', Nat.mod_eq_of_lt hc'] at h
  · have h := C13_make g CVStatus.noteOn c n a (noteData v d)
    rwa [toNat_noteData, Nat.mod_eq_of_lt hg', Nat.mod_eq_of_lt hc'] at h

example := C13_note_factories 3 5 0x3C 2 0x1234 0x5678 (by decide) (by decide) (by decide)

/-- C13: the per note, controller, pressure and pitch bend factories. `i` is an arbitrary 8 bit per note controller
number or flags, `b` and `x` are 7 bit bank and index. -/
theorem C13_controller_factories (g c n i b x : Byte) (w : Word) (hg : g < 16) (hc : c < 16) (hn : n < 128)
    (hb : b < 128) (hx : x < 128) :
    Midi2Layout (makeRegisteredPerNote g c n i w) g.toNat 0x0 c.toNat n.toNat i.toNat w.toNat ∧
    Midi2Layout (makeAssignablePerNote g c n i w) g.toNat 0x1 c.toNat n.toNat i.toNat w.toNat ∧
    Midi2Layout (makeRegistered g c b x w) g.toNat 0x2 c.toNat b.toNat x.toNat w.toNat ∧
    Midi2Layout (makeAssignable g c b x w) g.toNat 0x3 c.toNat b.toNat x.toNat w.toNat ∧
    Midi2Layout (makeRelativeRegistered g c b x w) g.toNat 0x4 c.toNat b.toNat x.toNat w.toNat ∧
    Midi2Layout (makeRelativeAssignable g c b x w) g.toNat 0x5 c.toNat b.toNat x.toNat w.toNat ∧
    Midi2Layout (makePerNotePitchBend g c n w) g.toNat 0x6 c.toNat n.toNat 0 w.toNat ∧
    Midi2Layout (makeMidi2PolyPressure g c n w) g.toNat 0xA c.toNat n.toNat 0 w.toNat ∧
    Midi2Layout (makeMidi2ControlChange g c n w) g.toNat 0xB c.toNat n.toNat 0 w.toNat ∧
    Midi2Layout (makeMidi2ChannelPressure g c w) g.toNat 0xD c.toNat 0 0 w.toNat ∧
    Midi2Layout (makeMidi2PitchBend g c w) g.toNat 0xE c.toNat 0 0 w.toNat ∧
    Midi2Layout (makePerNoteManagement g c n i) g.toNat 0xF c.toNat n.toNat i.toNat 0 := by
  have key : ∀ s i1 i2 d, Midi2Layout (midi2Message g s c i1 i2 d) g.toNat (s.toNat / 16) c.toNat i1.toNat i2.toNat
      d.toNat := by
    intro s i1 i2 d
    have h := C13_make g s c i1 i2 d
    rwa [Nat.mod_eq_of_lt (show g.toNat < 16 from hg), Nat.mod_eq_of_lt (show c.toNat < 16 from hc)] at h
  simp only [makeRegistered, makeAssignable, makeRelativeRegistered, makeRelativeAssignable, makeMidi2ControlChange,
    and7F_of_lt hb, and7F_of_lt hx, and7F_of_lt hn]
  exact ⟨key _ _ _ _, key _ _ _ _, key _ _ _ _, key _ _ _ _, key _ _ _ _, key _ _ _ _, key _ _ _ _, key _ _ _ _,
    key _ _ _ _, key _ _ _ _, key _ _ _ _, key _ _ _ _⟩

example := C13_controller_factories 3 5 0x3C 7 9 11 0x12345678 (by decide) (by decide) (by decide) (by decide) (by decide)

/-- C13: the program change factories; the bank is split into two 7 bit fields and flagged as valid. -/
theorem C13_program_factories (g c n : Byte) (b : U16) (hg : g < 16) (hc : c < 16) (hn : n < 128)
    (hb : b.toNat < 2 ^ 14) :
    Midi2Layout (makeMidi2ProgramChange g c n) g.toNat 0xC c.toNat 0 0 (n.toNat * 2 ^ 24) ∧
    Midi2Layout (makeMidi2ProgramChangeBank g c n b) g.toNat 0xC c.toNat 0 1
      (n.toNat * 2 ^ 24 + b.toNat / 128 * 2 ^ 8 + b.toNat % 128) := by
  have hg' : g.toNat < 16 := hg
  have hc' : c.toNat < 16 := hc
  have hn' : n.toNat < 128 := hn
  have e1 : ((n &&& 0x7F).setWidth 32 <<< 24 : Word).toNat = n.toNat * 2 ^ 24 := by
    rw [and7F_of_lt hn]; simp [Nat.shiftLeft_eq]; omega
  have m7 : ∀ x : Nat, x &&& 127 = x % 128 := fun x => Nat.and_two_pow_sub_one_eq_mod x 7
  constructor
  · have h := C13_make g CVStatus.programChange c 0 0 ((n &&& 0x7F).setWidth 32 <<< 24)
    rwa [e1, Nat.mod_eq_of_lt hg', Nat.mod_eq_of_lt hc'] at h
  · have h := C13_make g CVStatus.programChange c 0 1
      (((n &&& 0x7F).setWidth 32 <<< 24) ||| ((b &&& 0x3F80).setWidth 32 <<< 1) ||| (b &&& 0x7F).setWidth 32)
    have e3 : ((b &&& 0x7F).setWidth 32 : Word).toNat = b.toNat % 128 := by simp [m7]
    have e4 : (b &&& 0x3F80).toNat = b.toNat / 128 * 128 := by
      have hs : (b &&& 0x3F80) + (b &&& 0x7F) = b := by
        rw [BitVec.add_eq_or_of_and_eq_zero _ _ (by bits)]
        have b14 : b[14] = false := by
          rw [← BitVec.getLsbD_eq_getElem, BitVec.getLsbD]
          exact Nat.testBit_lt_two_pow hb
        have b15 : b[15] = false := by
          rw [← BitVec.getLsbD_eq_getElem, BitVec.getLsbD]
          exact Nat.testBit_lt_two_pow (by omega)
        bits [b14, b15]
      have h7 : (b &&& 0x7F).toNat = b.toNat % 128 := by simp [m7]
      have hle : (b &&& 0x3F80).toNat ≤ 0x3F80 := by
        rw [BitVec.toNat_and]; exact Nat.and_le_right
      have := congrArg BitVec.toNat hs
      rw [BitVec.toNat_add, h7] at this
      omega
    have e2 : ((b &&& 0x3F80).setWidth 32 <<< 1 : Word).toNat = b.toNat / 128 * 2 ^ 8 := by
      rw [BitVec.toNat_shiftLeft, BitVec.toNat_setWidth, e4, Nat.shiftLeft_eq]
      omega
    have e12 : (((n &&& 0x7F).setWidth 32 <<< 24) ||| ((b &&& 0x3F80).setWidth 32 <<< 1) : Word).toNat =
        n.toNat * 2 ^ 24 + b.toNat / 128 * 2 ^ 8 := by
      rw [toNat_or_disjoint _ _ (by bits) (by rw [e1, e2]; omega), e1, e2]
    rw [toNat_or_disjoint _ _ (by bits) (by rw [e12, e3]; omega), e12, e3, Nat.mod_eq_of_lt hg',
      Nat.mod_eq_of_lt hc'] at h
    exact h

example := C13_program_factories 3 5 0x3C 0x1234 (by decide) (by decide) (by decide) (by decide)

/-- The `is_*_message` predicates for channel voice messages with the opcode (upper status nibble) they stand for. -/
def midi2Predicates : List (Nat × (Packet → Bool)) :=
  [(0x0, isRegisteredPerNote), (0x1, isAssignablePerNote), (0x2, isRegistered), (0x3, isAssignable),
   (0x6, isPerNotePitchBend), (0x8, isNoteOff), (0x9, isNoteOn), (0xA, isPolyPressure), (0xB, isControlChange),
   (0xC, isProgramChange), (0xD, isChannelPressure), (0xE, isPitchBend)]

/-- C13: on MIDI 2 channel voice messages each predicate holds exactly for its own opcode; hence a message matches its
own predicate and no other one. -/
theorem C13_predicates (p : Packet) (ht : p.type = 4) (o : Nat) (pred : Packet → Bool)
    (hm : (o, pred) ∈ midi2Predicates) : pred p = true ↔ p.status.toNat / 16 = o := by
  have hst : ∀ k : Byte, k.toNat % 16 = 0 → (p.status &&& 0xF0 = k ↔ p.status.toNat / 16 = k.toNat / 16) := by
    intro k hk
    have e := toNat_andF0 p.status
    constructor
    · intro h; rw [h] at e; omega
    · intro h; apply BitVec.eq_of_toNat_eq; omega
  simp only [midi2Predicates, List.mem_cons, Prod.mk.injEq, List.mem_nil_iff, or_false] at hm
  rcases hm with h | h | h | h | h | h | h | h | h | h | h | h <;> obtain ⟨rfl, rfl⟩ := h
  · simpa [isRegisteredPerNote, isMidi2CV, ht, PacketType.midi2ChannelVoice, CVStatus.registeredPerNote] using hst 0x00 rfl
  · simpa [isAssignablePerNote, isMidi2CV, ht, PacketType.midi2ChannelVoice, CVStatus.assignablePerNote] using hst 0x10 rfl
  · simpa [isRegistered, isMidi2CV, ht, PacketType.midi2ChannelVoice, CVStatus.registered] using hst 0x20 rfl
  · simpa [isAssignable, isMidi2CV, ht, PacketType.midi2ChannelVoice, CVStatus.assignable] using hst 0x30 rfl
  · simpa [isPerNotePitchBend, isMidi2CV, ht, PacketType.midi2ChannelVoice, CVStatus.perNotePitchBend] using hst 0x60 rfl
  · rw [(C11_meaning p).2]; simp [ht]
  · rw [(C11_meaning p).1]; simp [ht]
  · simpa [isPolyPressure, isCVWithStatus, isChannelVoice, ht, PacketType.midi2ChannelVoice] using hst 0xA0 rfl
  · simpa [isControlChange, isCVWithStatus, isChannelVoice, ht, PacketType.midi2ChannelVoice] using hst 0xB0 rfl
  · simpa [isProgramChange, isCVWithStatus, isChannelVoice, ht, PacketType.midi2ChannelVoice] using hst 0xC0 rfl
  · simpa [isChannelPressure, isCVWithStatus, isChannelVoice, ht, PacketType.midi2ChannelVoice] using hst 0xD0 rfl
  · simpa [isPitchBend, isCVWithStatus, isChannelVoice, ht, PacketType.midi2ChannelVoice] using hst 0xE0 rfl

/-- C13: a message with the layout of opcode `o` matches the predicate of `o` and no other one. -/
theorem C13_own_predicate (p : Packet) (g o c i1 i2 d : Nat) (h : Midi2Layout p g o c i1 i2 d)
    (hg : g < 16) (ho : o < 16) (hc : c < 16) (h1 : i1 < 256) (h2 : i2 < 256) (o' : Nat) (pred : Packet → Bool)
    (hm : (o', pred) ∈ midi2Predicates) : pred p = true ↔ o' = o := by
  have h' := h.1
  have ht : p.type = PacketType.midi2ChannelVoice := by
    rw [type_eq_iff]; simp only [PacketType.midi2ChannelVoice]; simp; omega
  have hs : p.status.toNat / 16 = o := by rw [toNat_status]; omega
  rw [C13_predicates p ht o' pred hm, hs]
  exact eq_comm

example : isNoteOn ⟨0x43953C02, 0x12345678, 0, 0⟩ = true := (C13_own_predicate ⟨0x43953C02, 0x12345678, 0, 0⟩ 3 9 5 0x3C 2 0x12345678
  ⟨rfl, rfl, rfl, rfl⟩ (by decide) (by decide) (by decide) (by decide) (by decide) 9 isNoteOn (by simp [midi2Predicates])).2 rfl

/-- C13: the free accessor functions return what was passed to the factories: note number, velocity, attribute and
attribute data, pitch, controller numbers and values, program and sensitivity. -/
theorem C13_accessors (g c n a i : Byte) (v d : U16) (w : Word) (hn : n < 128) :
    (noteNr (makeMidi2NoteOnAttribute g c n v a d) = n ∧ noteVelocity (makeMidi2NoteOnAttribute g c n v a d) = v ∧
      noteAttribute (makeMidi2NoteOnAttribute g c n v a d) = a ∧
      noteAttributeData (makeMidi2NoteOnAttribute g c n v a d) = d ∧
      isNoteOnWithAttribute (makeMidi2NoteOnAttribute g c n v a d) a = true) ∧
    (noteNr (makeMidi2NoteOff g c n v a d) = n ∧ noteVelocity (makeMidi2NoteOff g c n v a d) = v ∧
      noteAttribute (makeMidi2NoteOff g c n v a d) = a ∧ noteAttributeData (makeMidi2NoteOff g c n v a d) = d ∧
      isNoteOffWithAttribute (makeMidi2NoteOff g c n v a d) a = true) ∧
    (notePitch (makeMidi2NoteOnPitch g c n v d) = d ∧ isNoteOnWithPitch79 (makeMidi2NoteOnPitch g c n v d) = true) ∧
    (noteVelocity (makeMidi2NoteOn g c n v) = v ∧ notePitch (makeMidi2NoteOn g c n v) = pitch79OfNote n) ∧
    (controllerNr (makeMidi2ControlChange g c n w) = n ∧ controllerValue (makeMidi2ControlChange g c n w) = w) ∧
    (noteNr (makeMidi2PolyPressure g c n w) = n ∧ controllerValue (makeMidi2PolyPressure g c n w) = w) ∧
    channelPressureValue (makeMidi2ChannelPressure g c w) = w ∧
    pitchBendValue (makeMidi2PitchBend g c w) = .ok w ∧
    perNotePitchBendValue (makePerNotePitchBend g c n w) = w ∧
    programValue (makeMidi2ProgramChange g c n) = n ∧
    (perNoteControllerIndex (makeRegisteredPerNote g c n i w) = i ∧
      (isRegisteredPerNotePitch (makeRegisteredPerNote g c n i w) = true ↔ i = 3)) := by
  have hv : ((noteData v d) >>> 16).setWidth 16 = v := by unfold noteData; bits
  have hd : ((noteData v d) &&& 0xFFFF).setWidth 16 = d := by unfold noteData; bits
  have hv0 : ((v.setWidth 32 <<< 16 : Word) >>> 16).setWidth 16 = v := by bits
  have hp : ((((n.setWidth 32 <<< 24 : Word) >>> 24) &&& 0x7F).setWidth 8) = n := by
    have h7 := lt128_bits hn
    bits [h7]
  have n7 := and7F_of_lt hn
  simp only [noteNr, noteVelocity, noteAttribute, noteAttributeData, isNoteOnWithAttribute, isNoteOffWithAttribute,
    notePitch, isNoteOnWithPitch79, controllerNr, controllerValue, channelPressureValue, pitchBendValue,
    perNotePitchBendValue, programValue, perNoteControllerIndex, isRegisteredPerNotePitch, isRegisteredPerNote,
    makeMidi2NoteOnAttribute, makeMidi2NoteOff, makeMidi2NoteOnPitch, makeMidi2NoteOn, makeMidi2ControlChange,
    makeMidi2PolyPressure, makeMidi2ChannelPressure, makeMidi2PitchBend, makePerNotePitchBend, makeMidi2ProgramChange,
    makeRegisteredPerNote, type_midi2Message, status_midi2Message, byte3_midi2Message, byte4_midi2Message,
    w1_midi2Message, isMidi2CV, PacketType.midi2ChannelVoice, PacketType.midi1ChannelVoice, hv, hd, hv0, hp, n7,
    status_hi,
    attributePitch79, CVStatus.noteOn, CVStatus.noteOff, CVStatus.registeredPerNote]
  refine ⟨?_, ?_, ?_, ?_, ?_, ?_, ?_, ?_, ?_, ?_, ?_⟩
  all_goals simp

example : midi2Predicates.map (·.2 (makeMidi2NoteOn 1 2 60 0xFFFF)) =
    [false, false, false, false, false, false, true, false, false, false, false, false] := by decide

/-! ## C14 -/

/-- C14: the system message factory stores group (reduced to 4 bits), status and data, and the view reads them back
(data bytes as 7 bit). -/
theorem C14_system (g s d1 d2 : Byte) :
    SystemLayout (makeSystem g s d1 d2) (g.toNat % 16) s.toNat d1.toNat d2.toNat ∧
    asSystemView (makeSystem g s d1 d2) = .ok (some (makeSystem g s d1 d2)) ∧
    (makeSystem g s d1 d2).group.toNat = g.toNat % 16 ∧ (makeSystem g s d1 d2).status = s ∧
    (systemData1 (makeSystem g s d1 d2)).toNat = d1.toNat % 128 ∧
    (systemData2 (makeSystem g s d1 d2)).toNat = d2.toNat % 128 := by
  have t1 : ((1 : Byte) <<< 4 ||| (g &&& 0x0F)) >>> 4 = 1 := typ_or 1 g (by decide)
  rw [makeSystem_eq]
  refine ⟨⟨?_, rfl, rfl, rfl⟩, ?_, ?_, ?_, ?_, ?_⟩
  · show (wordOf _ _ _ _).toNat = _
    rw [toNat_wordOf, toNat_typ _ _ (by decide)]; simp; omega
  · unfold asSystemView systemView isSystemMessage
    rw [type_wordOf, t1, if_pos (by decide), assert_ok (by decide)]; rfl
  · rw [group_wordOf, grp_or, toNat_and0F]
  · simp
  · rw [systemData1, byte3_wordOf, toNat_and7F]
  · rw [systemData2, byte4_wordOf, toNat_and7F]

/-- C14: the song position round trips for every 14 bit position, and larger values are reduced to 14 bit. -/
theorem C14_song_position (g : Byte) (pos : U16) :
    (makeSongPosition g pos).status = 0xF2 ∧ (songPositionOf (makeSongPosition g pos)).toNat = pos.toNat % 2 ^ 14 := by
  have m7 : ∀ x : Nat, x &&& 127 = x % 128 := fun x => Nat.and_two_pow_sub_one_eq_mod x 7
  have hs : (makeSongPosition g pos).status = 0xF2 := (C14_system g _ _ _).2.2.2.1
  refine ⟨hs, ?_⟩
  unfold songPositionOf
  rw [if_pos (show _ = SystemStatus.songPosition from hs), systemData1, systemData2, toNat_of14]
  simp only [makeSongPosition, makeSystem_eq, byte3_wordOf, byte4_wordOf]
  simp [BitVec.toNat_ushiftRight, Nat.shiftRight_eq_div_pow, m7]
  have := pos.isLt
  omega

/-- C14: `get_song_position` of a message that is no song position message is 0. -/
theorem C14_song_position_other (p : Packet) (h : p.status ≠ 0xF2) : songPositionOf p = 0 := by
  exact if_neg h

example := C14_song_position_other ⟨0x11F30500, 0, 0, 0⟩ (by decide)

/-- C14: the utility message factory stores status and payload, and the view reads them back. -/
theorem C14_utility (s : Byte) (v : U16) :
    UtilityLayout (makeUtility s v) s.toNat v.toNat ∧
    utilityView (makeUtility s v) = .ok (makeUtility s v) ∧
    utilityStatus (makeUtility s v) = s ∧ utilityPayload (makeUtility s v) = v := by
  rw [makeUtility_eq]
  refine ⟨⟨?_, rfl, rfl, rfl⟩, ?_, ?_, ?_⟩
  · show (wordOf _ _ _ _).toNat = _
    rw [toNat_wordOf]
    have := v.isLt
    simp [BitVec.toNat_ushiftRight, Nat.shiftRight_eq_div_pow]; omega
  · unfold utilityView; rw [type_wordOf, assert_ok (by decide)]; rfl
  · simp [utilityStatus]
  · simp only [utilityPayload, byte3_wordOf, byte4_wordOf]; bits

/-- C14: views of packets of another type are refused. -/
theorem C14_view_rejects (p : Packet) :
    (p.type ≠ 1 → asSystemView p = .ok none ∧ systemView p = .error .assertFailed) ∧
    (p.type ≠ 0 → utilityView p = .error .assertFailed) := by
  constructor
  · intro h
    have hs : isSystemMessage p = false := by simpa [isSystemMessage, PacketType.system] using h
    refine ⟨by simp [asSystemView, hs], ?_⟩
    unfold systemView; rw [assert_fail (by simpa [PacketType.system] using h)]; rfl
  · intro h
    unfold utilityView; rw [assert_fail (by simpa [PacketType.utility] using h)]; rfl

example : songPositionOf (makeSongPosition 5 0x1234) = 0x1234 := by decide

end Midi
