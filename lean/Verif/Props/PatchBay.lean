import Verif.Spec.PatchBay
import Verif.Spec.Sounding
import Verif.Props.Packet
import Verif.Props.Dispatch
import Verif.Model.Collector
import Verif.Model.ByteStream
import Verif.Model.FlexData
import Verif.Model.Stream

/-!
# C116: packets are moved to other groups
-/

namespace Midi
open Spec

/-! ## Helper lemmas -/

/-- A packet and the same packet in another group. -/
structure SameButGroup (p q : Packet) : Prop where
  type : q.type = p.type
  status : q.status = p.status
  byte3 : q.byte3 = p.byte3
  byte4 : q.byte4 = p.byte4
  w1 : q.w1 = p.w1
  w2 : q.w2 = p.w2
  w3 : q.w3 = p.w3
  get : ∀ b, 1 ≤ b → q.getByte b = p.getByte b

theorem SameButGroup.refl (p : Packet) : SameButGroup p p := ⟨rfl, rfl, rfl, rfl, rfl, rfl, rfl, fun _ _ => rfl⟩

theorem SameButGroup.byte2 {p q : Packet} (h : SameButGroup p q) : q.byte2 = p.byte2 := h.status

theorem setGroup_same (p : Packet) {g : Byte} (hg : g < 16) : ∃ q, p.setGroup g = .ok q ∧ q.group = g ∧ SameButGroup p q := by
  obtain ⟨q, h1, h2, h3, h4⟩ := (C02_set_group p g).1 hg
  have hq := h1
  rw [Packet.setGroup_ok p hg] at hq
  have hq := Except.ok.inj hq
  refine ⟨q, h1, h2, ⟨h3, ?_, ?_, ?_, by rw [← hq], by rw [← hq], by rw [← hq], h4⟩⟩
  · have := h4 1 (by omega)
    rw [(C02_header_fields q).2.2.1, (C02_header_fields p).2.2.1] at this
    exact Except.ok.inj this
  · have := h4 2 (by omega)
    rw [(C02_header_fields q).2.2.2.1, (C02_header_fields p).2.2.2.1] at this
    exact Except.ok.inj this
  · have := h4 3 (by omega)
    rw [(C02_header_fields q).2.2.2.2, (C02_header_fields p).2.2.2.2] at this
    exact Except.ok.inj this

theorem patch_same {f : Byte → Byte} (hf : ∀ g, f g < 16) (p : Packet) : ∃ q, patch f p = .ok q ∧ SameButGroup p q ∧
    (p.type ≠ PacketType.utility → p.type ≠ PacketType.stream → q.group = f p.group) := by
  unfold patch
  by_cases h : p.type = PacketType.utility ∨ p.type = PacketType.stream
  · rw [if_pos h]
    exact ⟨p, rfl, .refl p, fun h1 h2 => absurd h (by simp [h1, h2])⟩
  · rw [if_neg h]
    obtain ⟨q, h1, h2, h3⟩ := setGroup_same p (hf p.group)
    exact ⟨q, h1, h3, fun _ _ => h2⟩

theorem patchAll_same {f : Byte → Byte} (hf : ∀ g, f g < 16) (ps : List Packet) : ∃ qs, patchAll f ps = .ok qs ∧
    List.Forall₂ (fun p q => patch f p = .ok q) ps qs := by
  induction ps with
  | nil => exact ⟨[], rfl, .nil⟩
  | cons p ps ih =>
    obtain ⟨q, h, _⟩ := patch_same hf p
    obtain ⟨qs, h1, h2⟩ := ih
    refine ⟨q :: qs, ?_, .cons h h2⟩
    rw [patchAll, List.mapM_cons, h, ok_bind]
    rw [patchAll] at h1
    rw [h1]; rfl

theorem collectLoop7_same {p q : Packet} (h : SameButGroup p q) (c : Collector7) (b k : Nat) :
    c.collectLoop q b k = c.collectLoop p b k := by
  induction k generalizing c b with
  | zero => rfl
  | succ k ih =>
    unfold Collector7.collectLoop sysex7PayloadByte
    rw [h.get _ (by omega)]
    simp only [ih]

theorem feed7_same {p q : Packet} (h : SameButGroup p q) (c : Collector7) : c.feed q = c.feed p := by
  have hp : ∀ c : Collector7, c.feedPayload q = c.feedPayload p := fun c => by
    simp only [Collector7.feedPayload, sysex7PayloadSize, sysex7ViewStatus, h.status, collectLoop7_same h]; rfl
  have hi : isSysex7Packet q = isSysex7Packet p := by simp only [isSysex7Packet, isDataMessage, h.type, h.status]
  have hs : sysex7ViewStatus q = sysex7ViewStatus p := by simp only [sysex7ViewStatus, h.status]
  unfold Collector7.feed sysex7View
  rw [hi]
  cases isSysex7Packet p
  · rfl
  · simp only [assert, Bool.not_true, Bool.false_eq_true, if_false, if_true, bind, Except.bind, pure, Except.pure, hs, hp]

theorem collectLoop8_same {p q : Packet} (h : SameButGroup p q) (c : Collector8) (b k : Nat) :
    c.collectLoop q b k = c.collectLoop p b k := by
  induction k generalizing c b with
  | zero => rfl
  | succ k ih =>
    unfold Collector8.collectLoop sysex8PayloadByte
    rw [h.get _ (by omega)]
    simp only [ih]

theorem feed8_same {p q : Packet} (h : SameButGroup p q) (c : Collector8) : c.feed q = c.feed p := by
  have hf : sysex8Format q = sysex8Format p := by simp only [sysex8Format, h.status]
  have hp : ∀ c : Collector8, c.feedPayload q = c.feedPayload p := fun c => by
    simp only [Collector8.feedPayload, sysex8PayloadSize, hf, h.status, collectLoop8_same h]; rfl
  have hi : isSysex8Packet q = isSysex8Packet p := by simp only [isSysex8Packet, isExtendedDataMessage, h.type, h.status]
  have hs : sysex8StreamId q = sysex8StreamId p := by simp only [sysex8StreamId, h.get 2 (by omega)]
  unfold Collector8.feed sysex8View
  rw [hi]
  cases isSysex8Packet p
  · rfl
  · simp only [assert, Bool.not_true, Bool.false_eq_true, if_false, if_true, bind, Except.bind, pure, Except.pure, hs, hp, hf]

theorem copyBytes_same {p q : Packet} (h : SameButGroup p q) (out : List Byte) (b : Nat) (hb : 1 ≤ b) (n : Nat) :
    copyBytes q out b n = copyBytes p out b n := by
  induction n generalizing out b with
  | zero => rfl
  | succ n ih =>
    unfold copyBytes
    rw [h.get _ hb]
    simp only [ih _ (b + 1) (by omega)]

theorem bytes_same {p q : Packet} (h : SameButGroup p q) : toMidi1ByteStream q = toMidi1ByteStream p := by
  have hn : midi1ByteStreamSize q = midi1ByteStreamSize p := by simp only [midi1ByteStreamSize, h.type, h.status]
  have hi : isSysex7Packet q = isSysex7Packet p := by simp only [isSysex7Packet, isDataMessage, h.type, h.status]
  unfold toMidi1ByteStream
  simp only [hn, hi, h.type, h.status, copyBytes_same h _ _ (Nat.le_refl 1), copyBytes_same h _ _ (show 1 ≤ 2 by omega)]

theorem patch_midi1 {f : Byte → Byte} (hf : ∀ g, f g < 16) (p : Packet) (s a b : Byte) :
    patch f (midi1Message p.group s a b) = .ok (midi1Message (f p.group) s a b) := by
  have ht : (midi1Message p.group s a b).type = 2 := by unfold Packet.type midi1Message; bits
  have hg : (midi1Message p.group s a b).group = p.group := by unfold Packet.group midi1Message; bits
  unfold patch
  rw [ht, if_neg (by decide), hg, Packet.setGroup_ok _ (hf _)]
  have hx : f p.group = f p.group &&& 0x0F := by
    have := hf p.group
    generalize f p.group = x at this ⊢
    revert x; decide +kernel
  rw [hx]
  generalize f p.group = x
  unfold midi1Message
  congr 2
  bits

theorem patch_midi2 {f : Byte → Byte} (hf : ∀ g, f g < 16) (p : Packet) (s c a b : Byte) (d : Word) :
    patch f (midi2Message p.group s c a b d) = .ok (midi2Message (f p.group) s c a b d) := by
  have ht : (midi2Message p.group s c a b d).type = 4 := by unfold Packet.type midi2Message; bits
  have hg : (midi2Message p.group s c a b d).group = p.group := by unfold Packet.group midi2Message; bits
  unfold patch
  rw [ht, if_neg (by decide), hg, Packet.setGroup_ok _ (hf _)]
  have hx : f p.group = f p.group &&& 0x0F := by
    have := hf p.group
    generalize f p.group = x at this ⊢
    revert x; decide +kernel
  rw [hx]
  generalize f p.group = x
  unfold midi2Message
  congr 2
  bits

/-! ## The theorems -/

/-- C116: every packet can be moved. Utility and stream messages are not changed; the others are in the new group, with the same type, size
and bytes otherwise. -/
theorem C116_moved (f : Byte → Byte) (hf : ∀ g, f g < 16) (p : Packet) :
    ∃ q, patch f p = .ok q ∧ q.type = p.type ∧ q.size = p.size ∧ (∀ b, 1 ≤ b → q.getByte b = p.getByte b) ∧
      (p.type = PacketType.utility ∨ p.type = PacketType.stream → q = p) ∧
      (p.type ≠ PacketType.utility → p.type ≠ PacketType.stream → q.group = f p.group) := by
  obtain ⟨q, h1, h2, h3⟩ := patch_same hf p
  refine ⟨q, h1, h2.type, ?_, h2.get, fun h => ?_, h3⟩
  · unfold Packet.size; rw [h2.type]
  · unfold patch at h1; rw [if_pos h] at h1; exact (Except.ok.inj h1).symm

example : ∀ g : Byte, (g + 3) &&& 0x0F < 16 := by decide +kernel

/-- C116: nothing but the group is different for someone who receives the moved packet: all filters, and the values of channel voice,
system, sysex and flex data messages. -/
theorem C116_values (f : Byte → Byte) (hf : ∀ g, f g < 16) (p : Packet) : ∃ q, patch f p = .ok q ∧
    (∀ φ ∈ filters, φ q = φ p) ∧ q.channel = p.channel ∧ noteNr q = noteNr p ∧ noteVelocity q = noteVelocity p ∧
    notePitch q = notePitch p ∧ controllerNr q = controllerNr p ∧ controllerValue q = controllerValue p ∧
    programValue q = programValue p ∧ channelPressureValue q = channelPressureValue p ∧ pitchBendValue q = pitchBendValue p ∧
    midi2Byte3 q = midi2Byte3 p ∧ midi2Byte4 q = midi2Byte4 p ∧ midi2Data q = midi2Data p ∧ noteAttribute q = noteAttribute p ∧
    noteAttributeData q = noteAttributeData p ∧ perNoteControllerIndex q = perNoteControllerIndex p ∧
    systemData1 q = systemData1 p ∧ systemData2 q = systemData2 p ∧ songPositionOf q = songPositionOf p ∧
    isSysex7Packet q = isSysex7Packet p ∧ sysex7Format q = sysex7Format p ∧ sysex7PayloadSize q = sysex7PayloadSize p ∧
    (∀ b, sysex7PayloadByte q b = sysex7PayloadByte p b) ∧
    isSysex8Packet q = isSysex8Packet p ∧ sysex8Format q = sysex8Format p ∧ sysex8PayloadSize q = sysex8PayloadSize p ∧
    sysex8StreamId q = sysex8StreamId p ∧ (∀ b, sysex8PayloadByte q b = sysex8PayloadByte p b) ∧
    isFlexDataMessage q = isFlexDataMessage p ∧ flexFormat q = flexFormat p ∧ flexAddressCode q = flexAddressCode p ∧
    flexChannel q = flexChannel p ∧ flexStatusBank q = flexStatusBank p ∧ flexStatus q = flexStatus p ∧ flexData q = flexData p := by
  obtain ⟨q, h1, h, -⟩ := patch_same hf p
  refine ⟨q, h1, ?_, ?_⟩
  · intro φ hφ
    simp only [filters, List.mem_cons, List.not_mem_nil, or_false] at hφ
    rcases hφ with rfl | rfl | rfl | rfl | rfl | rfl | rfl | rfl | rfl | rfl | rfl | rfl <;>
      simp only [isNoteOn, isNoteOff, isPolyPressure, isControlChange, isProgramChange, isChannelPressure, isPitchBend,
        isRegistered, isAssignable, isRegisteredPerNote, isAssignablePerNote, isPerNotePitchBend, isCVWithStatus, isMidi2CV,
        Packet.isChannelVoice, h.type, h.status, h.byte4] <;> rfl
  · simp only [Packet.channel, Packet.hasChannel, noteNr, noteVelocity, notePitch, controllerNr, controllerValue, programValue,
      channelPressureValue, pitchBendValue, midi2Byte3, midi2Byte4, midi2Data, noteAttribute, noteAttributeData, perNoteControllerIndex,
      systemData1, systemData2, songPositionOf, isSysex7Packet, isDataMessage, sysex7Format, sysex7PayloadSize, sysex7PayloadByte,
      isSysex8Packet, isExtendedDataMessage, sysex8Format, sysex8PayloadSize, sysex8StreamId, sysex8PayloadByte, isFlexDataMessage,
      flexFormat, flexAddressCode, flexChannel, flexStatusBank, flexStatus, flexData, h.type, h.status, h.byte2, h.byte3, h.byte4, h.w1,
      h.w2, h.w3, h.get 2 (by omega), and_self, true_and]
    exact ⟨fun b => h.get _ (by omega), fun b => h.get _ (by omega), trivial⟩

/-- C116: the packets sent to a MIDI 1 cable are the same bytes. -/
theorem C116_bytes (f : Byte → Byte) (hf : ∀ g, f g < 16) (ps : List Packet) :
    ∃ qs, patchAll f ps = .ok qs ∧ qs.mapM toMidi1ByteStream = ps.mapM toMidi1ByteStream := by
  obtain ⟨qs, h, hr⟩ := patchAll_same hf ps
  refine ⟨qs, h, ?_⟩
  clear h
  induction hr with
  | nil => rfl
  | cons h _ ih =>
    obtain ⟨q, h1, h2, -⟩ := patch_same hf _
    obtain rfl := Except.ok.inj (h.symm.trans h1)
    rw [List.mapM_cons, List.mapM_cons, ih, bytes_same h2]

example : (patchAll (fun g => (g + 3) &&& 0x0F) [⟨0x20903C40, 0, 0, 0⟩, ⟨0x30167E01, 0x02030405, 0, 0⟩]) =
    .ok [⟨0x23903C40, 0, 0, 0⟩, ⟨0x33167E01, 0x02030405, 0, 0⟩] := by decide +kernel

/-- C116: a collector, in any state, does the same with the moved packets as with the packets as they came. -/
theorem C116_collectors (f : Byte → Byte) (hf : ∀ g, f g < 16) (ps : List Packet) (c7 : Collector7) (c8 : Collector8) :
    ∃ qs, patchAll f ps = .ok qs ∧ c7.feedAll qs = c7.feedAll ps ∧ c8.feedAll qs = c8.feedAll ps := by
  obtain ⟨qs, h, hr⟩ := patchAll_same hf ps
  refine ⟨qs, h, ?_⟩
  clear h
  induction hr generalizing c7 c8 with
  | nil => exact ⟨rfl, rfl⟩
  | cons h _ ih =>
    obtain ⟨q, h1, h2, -⟩ := patch_same hf _
    obtain rfl := Except.ok.inj (h.symm.trans h1)
    constructor
    · simp only [Collector7.feedAll, feed7_same h2, fun c => (ih c c8).1]
    · simp only [Collector8.feedAll, feed8_same h2, fun c => (ih c7 c).2]

/-- C116: when no two groups are moved to the same group, a collector for the new group of `g` does what a collector for the group `g` did
before: system exclusive messages which are sent in several groups at the same time are not mixed. -/
theorem C116_collectors_of_group (f : Byte → Byte) (hf : ∀ g, f g < 16)
    (hinj : ∀ g g', g < 16 → g' < 16 → f g = f g' → g = g') (ps : List Packet) (g : Byte) (hg : g < 16)
    (c7 : Collector7) (c8 : Collector8) : ∃ qs, patchAll f ps = .ok qs ∧
      c7.feedAll (qs.filter fun q => isSysex7Packet q && q.group == f g) = c7.feedAll (ps.filter fun p => isSysex7Packet p && p.group == g) ∧
      c8.feedAll (qs.filter fun q => isSysex8Packet q && q.group == f g) = c8.feedAll (ps.filter fun p => isSysex8Packet p && p.group == g) := by
  obtain ⟨qs, h, hr⟩ := patchAll_same hf ps
  refine ⟨qs, h, ?_⟩
  clear h
  induction hr generalizing c7 c8 with
  | nil => exact ⟨rfl, rfl⟩
  | @cons p q _ _ h _ ih =>
    obtain ⟨q', h1, h2, h3⟩ := patch_same hf p
    obtain rfl := Except.ok.inj (h.symm.trans h1)
    have hp16 : p.group < 16 := Packet.group_lt p
    have hi7 : isSysex7Packet q = isSysex7Packet p := by simp only [isSysex7Packet, isDataMessage, h2.type, h2.status]
    have hi8 : isSysex8Packet q = isSysex8Packet p := by simp only [isSysex8Packet, isExtendedDataMessage, h2.type, h2.status]
    have hgr : p.type ≠ PacketType.utility → p.type ≠ PacketType.stream → (q.group == f g) = (p.group == g) := fun a b => by
      rw [h3 a b, Bool.eq_iff_iff, beq_iff_eq, beq_iff_eq]
      exact ⟨fun e => hinj _ _ hp16 hg e, fun e => by rw [e]⟩
    have e7 : (isSysex7Packet q && q.group == f g) = (isSysex7Packet p && p.group == g) := by
      rw [hi7]
      cases h7 : isSysex7Packet p
      · rfl
      · have ht : p.type = PacketType.data := by
          simp only [isSysex7Packet, isDataMessage, Bool.and_eq_true, beq_iff_eq] at h7; exact h7.1.1
        rw [hgr (by rw [ht]; decide) (by rw [ht]; decide)]
    have e8 : (isSysex8Packet q && q.group == f g) = (isSysex8Packet p && p.group == g) := by
      rw [hi8]
      cases h8 : isSysex8Packet p
      · rfl
      · have ht : p.type = PacketType.extendedData := by
          simp only [isSysex8Packet, isExtendedDataMessage, Bool.and_eq_true, beq_iff_eq] at h8; exact h8.1.1.1
        rw [hgr (by rw [ht]; decide) (by rw [ht]; decide)]
    constructor
    · rw [List.filter_cons, List.filter_cons, e7]
      split
      · simp only [Collector7.feedAll, feed7_same h2, fun c => (ih c c8).1]
      · exact (ih c7 c8).1
    · rw [List.filter_cons, List.filter_cons, e8]
      split
      · simp only [Collector8.feedAll, feed8_same h2, fun c => (ih c7 c).2]
      · exact (ih c7 c8).2

example : ∀ g g' : Byte, g < 16 → g' < 16 → (g + 3) &&& 0x0F = (g' + 3) &&& 0x0F → g = g' := by decide +kernel

/-- C116: without that, they are: after two groups are moved to one, no collector delivers what was sent (cf. `C82_one_collector`). -/
theorem C116_merged_groups : ∃ qs c c0, patchAll (fun _ => 5) [⟨0x30167E01, 0x02030405, 0, 0⟩, ⟨0x3116410B, 0x0C0D0E0F, 0, 0⟩,
      ⟨0x30310600, 0, 0, 0⟩, ⟨0x31311000, 0, 0, 0⟩] = .ok qs ∧
    ({} : Collector7).feedAll (qs.filter fun q => isSysex7Packet q && q.group == 5) = .ok (c, [⟨0x410000, [11, 12, 13, 14, 15, 6]⟩]) ∧
    ({} : Collector7).feedAll [⟨0x30167E01, 0x02030405, 0, 0⟩, ⟨0x30310600, 0, 0, 0⟩] = .ok (c0, [⟨0x7E0000, [1, 2, 3, 4, 5, 6]⟩]) :=
  ⟨_, _, _, rfl, rfl, rfl⟩

/-- C116: why stream messages must be left alone: their group field holds other data, and `set_group` on a complete endpoint name
notification makes it the first packet of a longer name. -/
theorem C116_stream_message : ∃ p q, makeEndpointName .complete [0x41, 0x42] = .ok p ∧ p.setGroup 4 = .ok q ∧
    asEndpointName q = .ok (some q) ∧ streamFormat p = .complete ∧ streamFormat q = .start := ⟨_, _, rfl, rfl, rfl, rfl, rfl⟩

/-- C116: it does not matter whether a packet is first translated to the other protocol and then moved, or first moved and then translated. -/
theorem C116_translation (f : Byte → Byte) (hf : ∀ g, f g < 16) (p : Packet) :
    (do upgrade (← patch f p)) = (do patchAll f (← upgrade p)) ∧ (do downgrade (← patch f p)) = (do patchAll f (← downgrade p)) := by
  obtain ⟨q, h1, h2, h3⟩ := patch_same hf p
  have hone : patchAll f [p] = .ok [q] := by rw [patchAll, List.mapM_cons, h1]; rfl
  rw [h1]
  constructor
  · rw [ok_bind]
    have hi : isMidi1CV q = isMidi1CV p := by simp only [isMidi1CV, h2.type]
    unfold upgrade asMidi1View
    rw [hi]
    cases hm : isMidi1CV p
    · rw [if_neg (by decide), if_neg (by decide)]
      exact hone.symm
    · have ht : p.type = PacketType.midi1ChannelVoice := beq_iff_eq.1 hm
      have hg := h3 (by rw [ht]; decide) (by rw [ht]; decide)
      rw [if_pos rfl, if_pos rfl]
      unfold midi1View
      rw [hi, hm]
      show (do return (← asMidi2 q).toList : Except Fault (List Packet)) = (do patchAll f (← (do return (← asMidi2 p).toList)))
      unfold asMidi2
      have e1 : midi1Status q = midi1Status p := by simp only [midi1Status, h2.status]
      have e2 : midi1Channel q = midi1Channel p := by simp only [midi1Channel, h2.status]
      have e3 : midi1Data1 q = midi1Data1 p := by simp only [midi1Data1, h2.byte3]
      have e4 : midi1Data2 q = midi1Data2 p := by simp only [midi1Data2, h2.byte4]
      have e5 : midi1Value14 q = midi1Value14 p := by simp only [midi1Value14, e3, e4]
      simp only [e1, e2, e3, e4, e5, hg]
      by_cases c1 : midi1Status p = CVStatus.noteOff
      · simp only [if_pos c1, ok_bind, pure, Except.pure, Option.toList, patchAll, List.mapM_cons, List.mapM_nil, makeMidi2NoteOff, patch_midi2 hf]
      simp only [if_neg c1]
      by_cases c2 : midi1Status p = CVStatus.noteOn
      · simp only [if_pos c2]
        by_cases c : midi1Data2 p = 0
        · simp only [if_pos c, ok_bind, pure, Except.pure, Option.toList, patchAll, List.mapM_cons, List.mapM_nil, makeMidi2NoteOff, patch_midi2 hf]
        · simp only [if_neg c, ok_bind, pure, Except.pure, Option.toList, patchAll, List.mapM_cons, List.mapM_nil, makeMidi2NoteOn, patch_midi2 hf]
      simp only [if_neg c2]
      by_cases c3 : midi1Status p = CVStatus.polyPressure
      · simp only [if_pos c3, ok_bind, pure, Except.pure, Option.toList, patchAll, List.mapM_cons, List.mapM_nil, makeMidi2PolyPressure, patch_midi2 hf]
      simp only [if_neg c3]
      by_cases c4 : midi1Status p = CVStatus.controlChange
      · simp only [if_pos c4]
        by_cases c : untranslatedControllers.contains (midi1Data1 p) = true
        · simp only [if_pos c]; rfl
        · simp only [if_neg c, ok_bind, pure, Except.pure, Option.toList, patchAll, List.mapM_cons, List.mapM_nil, makeMidi2ControlChange, patch_midi2 hf]
      simp only [if_neg c4]
      by_cases c5 : midi1Status p = CVStatus.programChange
      · simp only [if_pos c5, ok_bind, pure, Except.pure, Option.toList, patchAll, List.mapM_cons, List.mapM_nil, makeMidi2ProgramChange, patch_midi2 hf]
      simp only [if_neg c5]
      by_cases c6 : midi1Status p = CVStatus.channelPressure
      · simp only [if_pos c6, ok_bind, pure, Except.pure, Option.toList, patchAll, List.mapM_cons, List.mapM_nil, makeMidi2ChannelPressure, patch_midi2 hf]
      simp only [if_neg c6]
      by_cases c7 : midi1Status p = CVStatus.pitchBend
      · simp only [if_pos c7]
        cases pitchBendOf14 (midi1Value14 p) with
        | error e => rfl
        | ok pb => simp only [Except.map, ok_bind, pure, Except.pure, Option.toList, patchAll, List.mapM_cons, List.mapM_nil, makeMidi2PitchBend, patch_midi2 hf]
      simp only [if_neg c7]
      rfl
  · rw [ok_bind]
    have hi : isMidi2CV q = isMidi2CV p := by simp only [isMidi2CV, h2.type]
    unfold downgrade asMidi2View
    rw [hi]
    cases hm : isMidi2CV p
    · rw [if_neg (by decide), if_neg (by decide)]
      exact hone.symm
    · have ht : p.type = PacketType.midi2ChannelVoice := beq_iff_eq.1 hm
      have hg := h3 (by rw [ht]; decide) (by rw [ht]; decide)
      rw [if_pos rfl, if_pos rfl]
      unfold midi2View
      rw [h2.type, ht]
      show (.ok (asMidi1 q).toList : Except Fault (List Packet)) = patchAll f (asMidi1 p).toList
      unfold asMidi1
      have e1 : midi2Status q = midi2Status p := by simp only [midi2Status, h2.status]
      have e2 : midi2Channel q = midi2Channel p := by simp only [midi2Channel, h2.status]
      have e3 : midi2Byte3 q = midi2Byte3 p := by simp only [midi2Byte3, h2.byte3]
      have e4 : midi2Byte4 q = midi2Byte4 p := by simp only [midi2Byte4, h2.byte4]
      have e5 : midi2Data q = midi2Data p := by simp only [midi2Data, h2.w1]
      simp only [e1, e2, e3, e4, e5, hg]
      split_ifs
      all_goals first
        | rfl
        | simp only [ok_bind, pure, Except.pure, Option.toList, patchAll, List.mapM_cons, List.mapM_nil, makeMidi1NoteOff,
            makeMidi1NoteOn, makeMidi1PolyPressure, makeMidi1ControlChange, makeMidi1ProgramChange, makeMidi1ChannelPressure,
            makeMidi1PitchBend, makeMidi1, patch_midi1 hf]

theorem patchAll_append {f : Byte → Byte} {a b a' b' : List Packet} (ha : patchAll f a = .ok a') (hb : patchAll f b = .ok b') :
    patchAll f (a ++ b) = .ok (a' ++ b') := by
  unfold patchAll at ha hb ⊢
  rw [List.mapM_append, ha, ok_bind, hb]
  rfl

theorem translated_patched {f : Byte → Byte} (hf : ∀ g, f g < 16) (tr : Packet → Except Fault (List Packet))
    (htr : ∀ p, (do tr (← patch f p)) = (do patchAll f (← tr p))) (ps : List Packet) :
    (do translated tr (← patchAll f ps)) = (do patchAll f (← translated tr ps)) := by
  induction ps with
  | nil => rfl
  | cons p ps ih =>
    obtain ⟨q, h1, -⟩ := patch_same hf p
    obtain ⟨qs, h2, -⟩ := patchAll_same hf ps
    have h := htr p
    have h3 : patchAll f (p :: ps) = .ok (q :: qs) := by
      unfold patchAll at h2 ⊢
      rw [List.mapM_cons, h1, ok_bind, h2]; rfl
    rw [h1, ok_bind] at h
    rw [h2, ok_bind] at ih
    rw [h3, ok_bind]
    unfold translated at ih ⊢
    rw [List.mapM_cons, List.mapM_cons, h]
    cases hp : tr p with
    | error e => rfl
    | ok a =>
      obtain ⟨a', ha, -⟩ := patchAll_same hf a
      rw [ok_bind, ok_bind, ha, ok_bind]
      cases hb : ps.mapM tr with
      | error e =>
        rw [hb] at ih
        cases hc : qs.mapM tr with
        | error e' => rw [hc] at ih; cases ih; rfl
        | ok c => rw [hc] at ih; cases ih
      | ok b =>
        rw [hb] at ih
        obtain ⟨b', hb', -⟩ := patchAll_same hf b.flatten
        change _ = patchAll f b.flatten at ih
        rw [hb'] at ih
        cases hc : qs.mapM tr with
        | error e' => rw [hc] at ih; cases ih
        | ok c =>
          rw [hc] at ih
          have hcb : c.flatten = b' := Except.ok.inj ih
          show (.ok (a' ++ c.flatten) : Except Fault (List Packet)) = patchAll f (a ++ b.flatten)
          rw [patchAll_append ha hb', hcb]

/-- C116: the same for a stream of packets. -/
theorem C116_translated_stream (f : Byte → Byte) (hf : ∀ g, f g < 16) (ps : List Packet) :
    (do translated upgrade (← patchAll f ps)) = (do patchAll f (← translated upgrade ps)) ∧
    (do translated downgrade (← patchAll f ps)) = (do patchAll f (← translated downgrade ps)) :=
  ⟨translated_patched hf _ (fun p => (C116_translation f hf p).1) ps, translated_patched hf _ (fun p => (C116_translation f hf p).2) ps⟩

example : (do patchAll (fun g => (g + 3) &&& 0x0F) (← translated upgrade [⟨0x20903C40, 0, 0, 0⟩, ⟨0xF0010101, 1, 0, 0⟩])) =
    .ok [⟨0x43903C00, 0x80000000, 0, 0⟩, ⟨0xF0010101, 1, 0, 0⟩] := by decide +kernel

/-- C116: the notes that sound in the group `g` sound in its new group, and no others do there, when no two groups are moved to the same. -/
theorem C116_notes (f : Byte → Byte) (hf : ∀ g, f g < 16) (hinj : ∀ g g', g < 16 → g' < 16 → f g = f g' → g = g')
    (ps : List Packet) (s t : Sounding) (hst : ∀ g, g < 16 → t (f g) = s g) (s' : Sounding) (hs : soundingAfter s ps = .ok s') :
    ∃ qs t', patchAll f ps = .ok qs ∧ soundingAfter t qs = .ok t' ∧ ∀ g, g < 16 → t' (f g) = s' g := by
  obtain ⟨qs, h, hr⟩ := patchAll_same hf ps
  refine ⟨qs, ?_⟩
  suffices ∃ t', soundingAfter t qs = .ok t' ∧ ∀ g, g < 16 → t' (f g) = s' g by
    obtain ⟨t', h1, h2⟩ := this
    exact ⟨t', h, h1, h2⟩
  clear h
  induction hr generalizing s t with
  | nil => obtain rfl := Except.ok.inj hs; exact ⟨t, rfl, hst⟩
  | @cons p q _ _ h _ ih =>
    obtain ⟨q', h1, h2, h3⟩ := patch_same hf p
    obtain rfl := Except.ok.inj (h.symm.trans h1)
    have hon : isNoteOn q = isNoteOn p := by unfold isNoteOn isCVWithStatus Packet.isChannelVoice; rw [h2.type, h2.status, h2.byte4]
    have hoff : isNoteOff q = isNoteOff p := by unfold isNoteOff isCVWithStatus Packet.isChannelVoice; rw [h2.type, h2.status, h2.byte4]
    have hnr : noteNr q = noteNr p := by unfold noteNr; rw [h2.byte3]
    have hch : q.channel = p.channel := by simp only [Packet.channel, Packet.hasChannel, h2.type, h2.byte2]
    have hset : p.type ≠ PacketType.utility → p.type ≠ PacketType.stream → ∀ c n b, ∀ g, g < 16 →
        (t.set q.group c n b) (f g) = (s.set p.group c n b) g := fun a b c n v g hg => by
      funext c' n'
      unfold Sounding.set
      rw [h3 a b, hst g hg]
      have : f g = f p.group ↔ g = p.group := ⟨fun e => hinj _ _ hg (Packet.group_lt p) e, fun e => by rw [e]⟩
      simp only [this]
    have hcv : isNoteOn p = true ∨ isNoteOff p = true → p.type ≠ PacketType.utility ∧ p.type ≠ PacketType.stream := fun e => by
      constructor <;> intro ht <;>
        simp [isNoteOn, isNoteOff, isCVWithStatus, Packet.isChannelVoice, ht, PacketType.utility, PacketType.stream,
          PacketType.midi1ChannelVoice, PacketType.midi2ChannelVoice] at e
    unfold soundingAfter at hs ⊢
    unfold Sounding.receive at hs ⊢
    rw [hon, hoff, hch, hnr]
    by_cases c1 : isNoteOn p = true
    · obtain ⟨a, b⟩ := hcv (.inl c1)
      rw [if_pos c1] at hs ⊢
      cases hc : p.channel with
      | error e => rw [hc] at hs; cases hs
      | ok c =>
        rw [hc] at hs
        exact ih _ _ (hset a b c (noteNr p) true) hs
    · rw [if_neg c1] at hs ⊢
      by_cases c2 : isNoteOff p = true
      · obtain ⟨a, b⟩ := hcv (.inr c2)
        rw [if_pos c2] at hs ⊢
        cases hc : p.channel with
        | error e => rw [hc] at hs; cases hs
        | ok c =>
          rw [hc] at hs
          exact ih _ _ (hset a b c (noteNr p) false) hs
      · rw [if_neg c2] at hs ⊢
        exact ih _ _ hst hs

example : ∃ s', soundingAfter (fun _ _ _ => false) [⟨0x20903C40, 0, 0, 0⟩, ⟨0x21903C40, 0, 0, 0⟩, ⟨0x40803C00, 0, 0, 0⟩] = .ok s' ∧
    s' 0 0 60 = false ∧ s' 1 0 60 = true := ⟨_, rfl, by decide, by decide⟩

end Midi
