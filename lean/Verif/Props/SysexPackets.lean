import Verif.Lemmas.Sysex

/-!
# Properties C15 and C16: payload of sysex packets
-/

namespace Midi
open Spec

theorem nibble_facts (s : Byte) :
    (decide ((s &&& 0xF0) ≤ 0x30) = decide (s.toNat / 16 ≤ 3)) ∧ (decide ((s &&& 0x0F) ≤ 6) = decide (s.toNat % 16 ≤ 6)) ∧
    (decide ((s &&& 0x0F) > 0) = decide (1 ≤ s.toNat % 16)) ∧ (decide ((s &&& 0x0F) ≤ 14) = decide (s.toNat % 16 ≤ 14)) := by
  revert s; decide +kernel

theorem type_iff (b : Byte) : ((b >>> 4 == (3 : Byte)) = decide (b.toNat / 16 = 3)) ∧
    ((b >>> 4 == (5 : Byte)) = decide (b.toNat / 16 = 5)) := by
  revert b; decide +kernel

/-- `is_sysex7_packet` is the predicate on packet bytes of the specification. -/
theorem C15_is_sysex7_packet_iff (p : Packet) : isSysex7Packet p = true ↔ IsSysex7 p := by
  unfold isSysex7Packet isDataMessage IsSysex7 PacketType.data
  rw [Packet.type_eq, Packet.status_eq, (nibble_facts _).1, (nibble_facts _).2.1, (type_iff _).1]
  simp [and_assoc]

/-- `is_sysex8_packet` is the predicate on packet bytes of the specification. -/
theorem C16_is_sysex8_packet_iff (p : Packet) : isSysex8Packet p = true ↔ IsSysex8 p := by
  unfold isSysex8Packet isExtendedDataMessage IsSysex8 PacketType.extendedData
  rw [Packet.type_eq, Packet.status_eq, (nibble_facts _).1, (nibble_facts _).2.2.1, (nibble_facts _).2.2.2, (type_iff _).2]
  simp [and_assoc]

theorem foldlM_add7 {g : Byte} (f : Format) (l : List Byte) : ∀ pl : List Byte, pl.length + l.length ≤ 6 →
    l.foldlM sysex7AddPayloadByte (mk7 f g pl) = .ok (mk7 f g (pl ++ l.map (· &&& 0x7F))) := by
  induction l with
  | nil => intro pl _; simp [pure_eq_ok]
  | cons b l ih =>
    intro pl h
    simp only [List.length_cons] at h
    rw [List.foldlM_cons, addPayload_mk7 f (by omega), ok_bind, ih _ (by simp; omega)]
    simp

theorem foldlM_add8 {s g : Byte} (f : Format) (l : List Byte) : ∀ pl : List Byte, pl.length + l.length ≤ 13 →
    l.foldlM sysex8AddPayloadByte (mk8 f s g pl) = .ok (mk8 f s g (pl ++ l)) := by
  induction l with
  | nil => intro pl _; simp [pure_eq_ok]
  | cons b l ih =>
    intro pl h
    simp only [List.length_cons] at h
    rw [List.foldlM_cons, addPayload_mk8 f s (by omega), ok_bind, ih _ (by simp; omega)]
    simp

/-- C15: creating an empty 7 bit sysex packet of any format in any group and adding at most six bytes never fails an
assertion, and the result is a sysex7 packet with that format and group, as many payload bytes as were added, which are
the added ones reduced to 7 bit. -/
theorem C15_payload (f : Format) (g : Byte) (hg : g < 16) (l : List Byte) (hl : l.length ≤ 6) :
    ∃ p, (do let e ← makeSysex7 f g; l.foldlM sysex7AddPayloadByte e) = .ok p ∧
      isSysex7Packet p = true ∧ sysex7Format p = f ∧ p.group = g ∧ sysex7PayloadSize p = l.length ∧
      (∀ i (h : i < l.length), sysex7PayloadByte p i = .ok (l[i] &&& 0x7F)) ∧
      payload7 p = l.map (· &&& 0x7F) := by
  have hm : (l.map (· &&& (0x7F : Byte))).length ≤ 6 := by simpa using hl
  refine ⟨mk7 f g (l.map (· &&& 0x7F)), ?_, ?_, ?_, ?_, ?_, ?_, ?_⟩
  · rw [makeSysex7_eq f hg, ok_bind, foldlM_add7 f l [] (by simpa using hl)]; rfl
  · exact (C15_is_sysex7_packet_iff _).2 (isSysex7_mk7 f hg hm)
  · exact sysex7Format_mk7 f g hm
  · rw [Packet.group_eq, byteAt_mk7_0, (hi3 hg).2.1]
  · rw [payloadSize_mk7 f g hm]; simp
  · intro i h
    rw [sysex7PayloadByte, Packet.getByte_lt _ (by omega), byteAt_mk7_data _ _ _ (by omega)]
    simp [h]
  · exact payload7_mk7 f g hm

example : ∃ p, (do let e ← makeSysex7 .start 5; [0x7E, 0x83, 3].foldlM sysex7AddPayloadByte e) = .ok p ∧
    p = ⟨0x35137E03, 0x03000000, 0, 0⟩ := ⟨_, rfl, by decide⟩

/-- C15: a seventh byte is refused by an assertion, not silently dropped or written elsewhere. -/
theorem C15_payload_full (f : Format) (g : Byte) (hg : g < 16) (l : List Byte) (hl : l.length = 6) (b : Byte) :
    (do let e ← makeSysex7 f g; (l ++ [b]).foldlM sysex7AddPayloadByte e) = .error .assertFailed := by
  rw [makeSysex7_eq f hg, ok_bind, List.foldlM_append, foldlM_add7 f l [] (by simp [hl])]
  simp only [ok_bind, List.foldlM_cons, sysex7AddPayloadByte, List.nil_append]
  rw [payloadSize_mk7 f g (by simp [hl])]
  simp [hl, assert_fail]

example := C15_payload_full .start 5 (by decide) [1, 2, 3, 4, 5, 6] (by decide) 7

/-- C15: `as_sysex7_packet_view` gives a view of exactly the sysex7 packets. -/
theorem C15_view (p : Packet) : asSysex7View p = .ok (if isSysex7Packet p then some p else none) := by
  unfold asSysex7View sysex7View
  by_cases h : isSysex7Packet p = true
  · rw [if_pos h, if_pos h, assert_ok h]; rfl
  · rw [if_neg h, if_neg h]; rfl

/-- C15: every byte of the payload of a sysex7 packet can be read, without failing an assertion. -/
theorem C15_view_payload (p : Packet) (h : isSysex7Packet p = true) :
    sysex7PayloadSize p ≤ 6 ∧ (payload7 p).length = sysex7PayloadSize p ∧
    ∀ i (hi : i < (payload7 p).length), sysex7PayloadByte p i = .ok (payload7 p)[i] := by
  have hs : sysex7PayloadSize p = (p.byteAt 1).toNat % 16 := by
    rw [sysex7PayloadSize, Packet.status_eq, toNat_and0F]
  have h6 := ((C15_is_sysex7_packet_iff p).1 h).2.2
  refine ⟨by omega, by simp [payload7, hs], ?_⟩
  intro i hi
  have hi' : i < 6 := by simp [payload7] at hi; omega
  rw [sysex7PayloadByte, Packet.getByte_lt _ (by omega)]
  simp [payload7]

/-- C16: creating an empty 8 bit sysex packet of any format in any group with any stream id and adding at most thirteen
bytes never fails an assertion, and the result is a sysex8 packet with that format, group and stream id, as many payload
bytes as were added, which are the added ones. -/
theorem C16_payload (f : Format) (s g : Byte) (hg : g < 16) (l : List Byte) (hl : l.length ≤ 13) :
    ∃ p, l.foldlM sysex8AddPayloadByte (makeSysex8 f s g) = .ok p ∧
      isSysex8Packet p = true ∧ sysex8Format p = f ∧ p.group = g ∧ sysex8StreamId p = .ok s ∧
      sysex8PayloadSize p = l.length ∧
      (∀ i (h : i < l.length), sysex8PayloadByte p i = .ok l[i]) ∧
      payload8 p = l := by
  refine ⟨mk8 f s g l, ?_, ?_, ?_, ?_, ?_, ?_, ?_, ?_⟩
  · rw [makeSysex8_eq f s hg, foldlM_add8 f l [] (by simpa using hl)]; rfl
  · exact (C16_is_sysex8_packet_iff _).2 (isSysex8_mk8 f s hg hl)
  · exact sysex8Format_mk8 f s g hl
  · rw [Packet.group_eq, byteAt_mk8_0, (hi5 hg).2.1]
  · rw [sysex8StreamId, Packet.getByte_lt _ (by omega), byteAt_mk8_2]
  · rw [payloadSize_mk8 f s g hl]
  · intro i h
    rw [sysex8PayloadByte, Packet.getByte_lt _ (by omega), byteAt_mk8_data _ _ _ _ (by omega)]
    simp [h]
  · exact payload8_mk8 f s g hl

example : ∃ p, [0x7E, 0x83, 3].foldlM sysex8AddPayloadByte (makeSysex8 .fin 0x99 5) = .ok p ∧
    p = ⟨0x5534997E, 0x83030000, 0, 0⟩ := ⟨_, rfl, by decide⟩

/-- C16: a fourteenth byte is refused by an assertion. -/
theorem C16_payload_full (f : Format) (s g : Byte) (hg : g < 16) (l : List Byte) (hl : l.length = 13) (b : Byte) :
    (l ++ [b]).foldlM sysex8AddPayloadByte (makeSysex8 f s g) = .error .assertFailed := by
  rw [makeSysex8_eq f s hg, List.foldlM_append, foldlM_add8 f l [] (by simp [hl])]
  simp only [ok_bind, List.foldlM_cons, sysex8AddPayloadByte, List.nil_append]
  rw [payloadSize_mk8 f s g (by simp [hl])]
  simp [hl, assert_fail]

example := C16_payload_full .start 1 5 (by decide) [1, 2, 3, 4, 5, 6, 7, 8, 9, 10, 11, 12, 13] (by decide) 14

/-- C16: `set_stream_id` changes the third byte of a packet and nothing else. -/
theorem C16_set_stream_id (p : Packet) (t : Byte) :
    ∃ q, sysex8SetStreamId p t = .ok q ∧ sysex8StreamId q = .ok t ∧ ∀ c, c < 16 → c ≠ 2 → q.byteAt c = p.byteAt c := by
  refine ⟨p.putByte 2 t, Packet.setByte_lt _ (by omega) t, ?_, ?_⟩
  · rw [sysex8StreamId, Packet.getByte_lt _ (by omega), Packet.byteAt_putByte_same _ (by omega)]
  · intro c hc h; exact Packet.byteAt_putByte_ne _ (by omega) hc h t

/-- C16: `as_sysex8_packet_view` gives a view of exactly the sysex8 packets. -/
theorem C16_view (p : Packet) : asSysex8View p = .ok (if isSysex8Packet p then some p else none) := by
  unfold asSysex8View sysex8View
  by_cases h : isSysex8Packet p = true
  · rw [if_pos h, if_pos h, assert_ok h]; rfl
  · rw [if_neg h, if_neg h]; rfl

/-- C16: every byte of the payload of a sysex8 packet can be read, without failing an assertion. -/
theorem C16_view_payload (p : Packet) (h : isSysex8Packet p = true) :
    sysex8PayloadSize p ≤ 13 ∧ (payload8 p).length = sysex8PayloadSize p ∧ sysex8StreamId p = .ok (stream8 p) ∧
    ∀ i (hi : i < (payload8 p).length), sysex8PayloadByte p i = .ok (payload8 p)[i] := by
  obtain ⟨_, _, h1, h14⟩ := (C16_is_sysex8_packet_iff p).1 h
  have hs : sysex8PayloadSize p = (p.byteAt 1).toNat % 16 - 1 := by
    simp only [sysex8PayloadSize, Packet.status_eq, toNat_and0F]
    rw [if_pos (by omega)]
  refine ⟨by omega, by simp [payload8, hs], Packet.getByte_lt _ (by omega), ?_⟩
  intro i hi
  have hi' : i < 13 := by simp [payload8] at hi; omega
  rw [sysex8PayloadByte, Packet.getByte_lt _ (by omega)]
  simp [payload8]

example := C16_view_payload ⟨0x50040000, 0x7E010000, 0, 0⟩ (by decide)

end Midi
