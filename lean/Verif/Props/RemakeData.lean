import Verif.Props.RemakeStream
import Verif.Props.FlexData
import Verif.Props.SysexPackets

/-!
# Property C89: sysex packets and flex data messages can be made again from what is read from them
-/

namespace Midi
open Spec

attribute [local irreducible] packetOf

theorem eqv_two_bytes {p q : Packet} (h : p.size = 2) : p.eqv q = true ↔ ∀ i, i < 8 → p.byteAt i = q.byteAt i := by
  rw [eqv_two_words h]
  constructor
  · rintro ⟨h0, h1⟩ i hi
    rw [Packet.byteAt_eq, Packet.byteAt_eq]
    rcases (show i / 4 = 0 ∨ i / 4 = 1 by omega) with e | e <;> rw [e]
    · exact congrArg (byteOf · (i % 4)) h0
    · exact congrArg (byteOf · (i % 4)) h1
  · intro k
    exact ⟨word_ext (k 0 (by omega)) (k 1 (by omega)) (k 2 (by omega)) (k 3 (by omega)),
      word_ext (k 4 (by omega)) (k 5 (by omega)) (k 6 (by omega)) (k 7 (by omega))⟩

theorem mapM_payload {f : Nat → Except Fault Byte} {g : Nat → Byte} : ∀ (l : List Nat), (∀ i ∈ l, f i = .ok (g i)) →
    l.mapM f = .ok (l.map g)
  | [], _ => rfl
  | a :: l, h => by
    rw [List.mapM_cons, h a (by simp), ok_bind, mapM_payload l (fun i hi => h i (by simp [hi]))]; rfl

theorem format_status (s : Byte) (h : s.toNat / 16 ≤ 3) : (Format.ofCode ((s >>> 4) &&& 3)).status = s &&& 0xF0 := by
  revert h; revert s; decide +kernel

theorem join_status (s : Byte) : (s &&& 0xF0) + BitVec.ofNat 8 (s.toNat % 16) = s := by revert s; decide +kernel

/-- C89: a packet of a 7 bit system exclusive message, made again from format, group and payload bytes, is equal to the
packet read exactly if the payload bytes have seven bits and the bytes behind the payload are zero. -/
theorem C89_sysex7 (p : Packet) (h : isSysex7Packet p = true) :
    ∃ l q, (List.range (sysex7PayloadSize p)).mapM (sysex7PayloadByte p) = .ok l ∧
      (do let e ← makeSysex7 (sysex7Format p) p.group; l.foldlM sysex7AddPayloadByte e) = .ok q ∧
      (p.eqv q = true ↔ (∀ i, 2 ≤ i → i < 2 + sysex7PayloadSize p → p.byteAt i < 0x80) ∧
        ∀ i, 2 + sysex7PayloadSize p ≤ i → i < 8 → p.byteAt i = 0) := by
  have h' := (C15_is_sysex7_packet_iff p).1 h
  have hs : sysex7PayloadSize p = (p.byteAt 1).toNat % 16 := by rw [sysex7PayloadSize, Packet.status_eq, toNat_and0F]
  have h6 : sysex7PayloadSize p ≤ 6 := by rw [hs]; exact h'.2.2
  have hg : p.group < 16 := by rw [Packet.group_eq]; exact and0F_lt _
  generalize hn : sysex7PayloadSize p = n at *
  refine ⟨(List.range n).map fun i => p.byteAt (2 + i), mk7 (sysex7Format p) p.group (((List.range n).map fun i => p.byteAt (2 + i)).map
    (· &&& 0x7F)), ?_, ?_, ?_⟩
  · apply mapM_payload
    intro i hi
    rw [sysex7PayloadByte, Packet.getByte, if_pos]
    have := List.mem_range.1 hi; omega
  · rw [makeSysex7_eq _ hg, ok_bind, foldlM_add7 _ _ [] (by simpa using h6)]; rfl
  · have hsz : p.size = 2 := by
      rw [Packet.size, Packet.type_eq]
      have : (p.byteAt 0 >>> 4).toNat = 3 := by
        rw [BitVec.toNat_ushiftRight, Nat.shiftRight_eq_div_pow]; exact h'.1
      rw [this]; rfl
    rw [eqv_two_bytes hsz]
    have b0 : p.byteAt 0 = (mk7 (sysex7Format p) p.group (((List.range n).map fun i => p.byteAt (2 + i)).map (· &&& 0x7F))).byteAt 0 := by
      rw [byteAt_mk7_0, Packet.group_eq]
      have := h'.1
      revert this; generalize p.byteAt 0 = b; revert b; decide +kernel
    have b1 : p.byteAt 1 = (mk7 (sysex7Format p) p.group (((List.range n).map fun i => p.byteAt (2 + i)).map (· &&& 0x7F))).byteAt 1 := by
      rw [byteAt_mk7_1, sysex7Format, Packet.status_eq, format_status _ h'.2.1]
      simp only [List.length_map, List.length_range]
      rw [hs, join_status]
    have bd : ∀ j, j < 6 → (mk7 (sysex7Format p) p.group (((List.range n).map fun i => p.byteAt (2 + i)).map
        (· &&& 0x7F))).byteAt (2 + j) = if j < n then p.byteAt (2 + j) &&& 0x7F else 0 := by
      intro j hj
      rw [byteAt_mk7_data _ _ _ (by omega), List.getD_eq_getElem?_getD]
      by_cases hjn : j < n
      · rw [if_pos hjn]; simp [hjn]
      · rw [if_neg hjn, List.getElem?_eq_none (by simpa using hjn)]; rfl
    constructor
    · intro k
      refine ⟨fun i h2 hi => ?_, fun i h2 hi => ?_⟩
      · obtain ⟨j, rfl⟩ : ∃ j, i = 2 + j := ⟨i - 2, by omega⟩
        have := k (2 + j) (by omega)
        rw [bd j (by omega), if_pos (by omega)] at this
        exact eq_and7F.1 this
      · obtain ⟨j, rfl⟩ : ∃ j, i = 2 + j := ⟨i - 2, by omega⟩
        have := k (2 + j) (by omega)
        rwa [bd j (by omega), if_neg (by omega)] at this
    · rintro ⟨k1, k2⟩ i hi
      by_cases e0 : i = 0
      · rw [e0]; exact b0
      by_cases e1 : i = 1
      · rw [e1]; exact b1
      obtain ⟨j, rfl⟩ : ∃ j, i = 2 + j := ⟨i - 2, by omega⟩
      rw [bd j (by omega)]
      by_cases hjn : j < n
      · rw [if_pos hjn]; exact eq_and7F.2 (k1 _ (by omega) (by omega))
      · rw [if_neg hjn]; exact k2 _ (by omega) (by omega)

example : isSysex7Packet ⟨0x35137E01, 0x02000000, 0, 0⟩ = true := by decide

/-- C89: a packet of an 8 bit system exclusive message, made again from format, stream id, group and payload bytes, is equal
to the packet read exactly if the bytes behind the payload are zero. -/
theorem C89_sysex8 (p : Packet) (h : isSysex8Packet p = true) :
    ∃ l id q, (List.range (sysex8PayloadSize p)).mapM (sysex8PayloadByte p) = .ok l ∧ sysex8StreamId p = .ok id ∧
      l.foldlM sysex8AddPayloadByte (makeSysex8 (sysex8Format p) id p.group) = .ok q ∧
      (p.eqv q = true ↔ ∀ i, 3 + sysex8PayloadSize p ≤ i → i < 16 → p.byteAt i = 0) := by
  have h' := (C16_is_sysex8_packet_iff p).1 h
  have hs : sysex8PayloadSize p + 1 = (p.byteAt 1).toNat % 16 := by
    have := h'.2.2.1
    simp only [sysex8PayloadSize, Packet.status_eq, toNat_and0F]
    rw [if_pos (by omega)]; omega
  have h13 : sysex8PayloadSize p ≤ 13 := by have := h'.2.2.2; omega
  have hg : p.group < 16 := by rw [Packet.group_eq]; exact and0F_lt _
  generalize hn : sysex8PayloadSize p = n at *
  refine ⟨(List.range n).map fun i => p.byteAt (3 + i), p.byteAt 2,
    mk8 (sysex8Format p) (p.byteAt 2) p.group ((List.range n).map fun i => p.byteAt (3 + i)), ?_, ?_, ?_, ?_⟩
  · apply mapM_payload
    intro i hi
    rw [sysex8PayloadByte, Packet.getByte, if_pos]
    have := List.mem_range.1 hi; omega
  · rw [sysex8StreamId, Packet.getByte, if_pos (by omega)]
  · rw [makeSysex8_eq _ _ hg, foldlM_add8 _ _ [] (by simpa using h13)]; rfl
  · have hsz : p.size = 4 := by
      rw [Packet.size, Packet.type_eq]
      have : (p.byteAt 0 >>> 4).toNat = 5 := by
        rw [BitVec.toNat_ushiftRight, Nat.shiftRight_eq_div_pow]; exact h'.1
      rw [this]; rfl
    rw [eqv_four_words hsz]
    have b0 : p.byteAt 0 = (mk8 (sysex8Format p) (p.byteAt 2) p.group ((List.range n).map fun i => p.byteAt (3 + i))).byteAt 0 := by
      rw [byteAt_mk8_0, Packet.group_eq]
      have := h'.1
      revert this; generalize p.byteAt 0 = b; revert b; decide +kernel
    have b1 : p.byteAt 1 = (mk8 (sysex8Format p) (p.byteAt 2) p.group ((List.range n).map fun i => p.byteAt (3 + i))).byteAt 1 := by
      rw [byteAt_mk8_1, sysex8Format, Packet.status_eq, format_status _ h'.2.1]
      simp only [List.length_map, List.length_range]
      rw [hs, join_status]
    have bd : ∀ j, j < 13 → (mk8 (sysex8Format p) (p.byteAt 2) p.group ((List.range n).map fun i => p.byteAt (3 + i))).byteAt
        (3 + j) = if j < n then p.byteAt (3 + j) else 0 := by
      intro j hj
      rw [byteAt_mk8_data _ _ _ _ (by omega), List.getD_eq_getElem?_getD]
      by_cases hjn : j < n
      · rw [if_pos hjn]; simp [hjn]
      · rw [if_neg hjn, List.getElem?_eq_none (by simpa using hjn)]; rfl
    constructor
    · intro k i h2 hi
      obtain ⟨j, rfl⟩ : ∃ j, i = 3 + j := ⟨i - 3, by omega⟩
      rw [k, bd j (by omega), if_neg (by omega)]
    · intro k2
      apply Packet.ext_bytes
      intro i hi
      by_cases e0 : i = 0
      · rw [e0]; exact b0
      by_cases e1 : i = 1
      · rw [e1]; exact b1
      by_cases e2 : i = 2
      · rw [e2, byteAt_mk8_2]
      obtain ⟨j, rfl⟩ : ∃ j, i = 3 + j := ⟨i - 3, by omega⟩
      rw [bd j (by omega)]
      by_cases hjn : j < n
      · rw [if_pos hjn]
      · rw [if_neg hjn]; exact k2 _ (by omega) (by omega)

example : isSysex8Packet ⟨0x5514017E, 0x01020000, 0, 0⟩ = true := by decide

/-! ## Flex data messages -/

theorem flex_fields (p : Packet) (h : (p.byteAt 0).toNat / 16 = 13) (a : Address) (ha : a.code = flexAddressCode p) :
    0xD0 + flexGroup p = p.byteAt 0 ∧ (flexFormat p).code * 64 + addressCode a * 16 + flexChannel p = p.byteAt 1 ∧
      flexGroup p < 16 ∧ flexChannel p < 16 := by
  have hc : addressCode a = (p.byteAt 1 &&& 0x30) >>> 4 := by
    rw [← Packet.byte2_eq]; change _ = flexAddressCode p; rw [← ha]; cases a <;> rfl
  rw [hc, flexGroup, flexFormat, flexChannel, Packet.group_eq, Packet.byte2_eq]
  refine ⟨?_, ?_, and0F_lt _, and0F_lt _⟩
  · revert h; generalize p.byteAt 0 = b; revert b; decide +kernel
  · generalize p.byteAt 1 = b; revert b; decide +kernel

theorem flexMessage_rejects {group : Byte} {format : Format} {address : Address} {channel bank status : Byte} {d1 d2 d3 : Word}
    (h : ¬ (address = .channel ∨ channel = 0)) :
    flexMessage group format address channel bank status d1 d2 d3 = .error .assertFailed := by
  unfold flexMessage
  have a2 : (decide (address = .channel) || decide (channel = 0)) = false := by
    rw [Bool.or_eq_false_iff, decide_eq_false_iff_not, decide_eq_false_iff_not]; exact not_or.1 h
  rw [a2]
  by_cases hc : decide (channel ≤ 15) = true
  · rw [hc]; rfl
  · rw [Bool.not_eq_true] at hc; rw [hc]; rfl

/-- C89: a flex data message, made again from what its view returns, is equal to the message read exactly if it addresses a
channel, or a group with the channel bits (which are reserved then) clear. -/
theorem C89_flex_data (p : Packet) (h : (p.byteAt 0).toNat / 16 = 13) (a : Address) (ha : a.code = flexAddressCode p) :
    (∃ q, makeFlexData (flexGroup p) (flexFormat p) a (flexChannel p) (flexStatusBank p) (flexStatus p) (flexData p).1
      (flexData p).2.1 (flexData p).2.2 = .ok q ∧ p.eqv q = true) ↔ (a = .channel ∨ flexChannel p = 0) := by
  obtain ⟨e0, e1, hg, hc⟩ := flex_fields p h a ha
  by_cases hv : a = .channel ∨ flexChannel p = 0
  · rw [makeFlexData, flexMessage_eq _ _ _ _ _ _ _ _ _ hg ⟨hc, hv⟩, e0, e1, flexStatusBank, flexStatus, Packet.byte3_eq,
      Packet.byte4_eq]
    refine ⟨fun _ => hv, fun _ => ⟨_, rfl, ?_⟩⟩
    have : (⟨wordOf (p.byteAt 0) (p.byteAt 1) (p.byteAt 2) (p.byteAt 3), (flexData p).1, (flexData p).2.1, (flexData p).2.2⟩ :
        Packet) = p := by
      obtain ⟨w0, w1, w2, w3⟩ := p
      show (⟨_, w1, w2, w3⟩ : Packet) = ⟨w0, w1, w2, w3⟩
      congr 1
      exact wordOf_byteOf w0
    rw [this]; exact C03_equivalence.1 p
  · rw [makeFlexData, flexMessage_rejects hv]
    exact ⟨fun ⟨_, hx, _⟩ => (by cases hx), fun hy => absurd hy hv⟩

example : ((⟨0xD3170012, 1, 2, 3⟩ : Packet).byteAt 0).toNat / 16 = 13 ∧
    Address.group.code = flexAddressCode ⟨0xD3170012, 1, 2, 3⟩ ∧ flexChannel ⟨0xD3170012, 1, 2, 3⟩ ≠ 0 ∧
    flexChannel ⟨0xD3100012, 1, 2, 3⟩ = 0 := by decide

/-- C89: a flex data text message, made again from what its view returns, is equal to the message read exactly if in addition
no character follows a zero, and start and continue messages are full. -/
theorem C89_flex_text (p : Packet) (h : (p.byteAt 0).toNat / 16 = 13) (a : Address) (ha : a.code = flexAddressCode p) :
    ∃ t, flexPayloadAsString p = .ok t ∧
      ((∃ q, makeFlexText (flexGroup p) (flexFormat p) a (flexChannel p) (flexStatusBank p) (flexStatus p) t = .ok q ∧
        p.eqv q = true) ↔
        (a = .channel ∨ flexChannel p = 0) ∧ ZeroPadded 4 p ∧
          (flexFormat p = .complete ∨ flexFormat p = .fin ∨ t.length = 12)) := by
  obtain ⟨e0, e1, hg, hc⟩ := flex_fields p h a ha
  obtain ⟨t, h1, h2, -, h4⟩ := readText_again (get := Packet.getByte) (m := id)
    (fun p i hi => by rw [Packet.getByte, if_pos hi]; rfl) rfl p 12 (by omega)
  have hsz : p.size = 4 := by rw [Packet.size, type_div, h]; rfl
  refine ⟨t, h1, ?_⟩
  by_cases hf : flexFormat p = .complete ∨ flexFormat p = .fin ∨ t.length = 12
  · by_cases hv : a = .channel ∨ flexChannel p = 0
    · have e : makeFlexText (flexGroup p) (flexFormat p) a (flexChannel p) (flexStatusBank p) (flexStatus p) t =
          .ok (packetOf ([p.byteAt 0, p.byteAt 1, p.byteAt 2, p.byteAt 3] ++ t)) := by
        unfold makeFlexText
        have a2 : ((decide (flexFormat p = .complete) || decide (flexFormat p = .fin)) || decide (t.length = 12)) = true := by
          rw [Bool.or_eq_true, Bool.or_eq_true, decide_eq_true_eq, decide_eq_true_eq, decide_eq_true_eq]
          exact or_assoc.2 hf
        rw [decide_eq_true h2, a2]
        simp only [assert_ok, ok_bind]
        rw [flexMessage_zero _ _ _ _ _ _ hg ⟨hc, hv⟩, ok_bind, flexHeader, e0, e1, flexStatusBank, flexStatus,
          Packet.byte3_eq, Packet.byte4_eq]
        exact storeText8 t [_, _, _, _] (by simp; omega)
      have key : p = packetOf ([p.byteAt 0, p.byteAt 1, p.byteAt 2, p.byteAt 3] ++ t) ↔ ZeroPadded 4 p := by
        rw [eq_packetOf_iff]
        have e4 : (∀ j, j < 12 → p.byteAt (16 - 12 + j) = t.getD j 0) ↔ ZeroPadded 4 p := by
          rw [h4]; simp
        rw [← e4]
        constructor
        · intro k j hj
          rw [k (16 - 12 + j) (by omega), show 16 - 12 + j = j + 4 by omega]
          rfl
        · intro k i hi
          by_cases h4' : i < 4
          · interval_cases i <;> rfl
          · obtain ⟨j, rfl⟩ : ∃ j, i = 16 - 12 + j := ⟨i - 4, by omega⟩
            rw [k j (by omega), show 16 - 12 + j = j + 4 by omega]
            rfl
      rw [e, ← key]
      constructor
      · rintro ⟨q, hx, hy⟩
        cases hx
        rw [eqv_four_words hsz] at hy
        exact ⟨hv, hy, hf⟩
      · rintro ⟨-, k, -⟩
        exact ⟨_, rfl, (eqv_four_words hsz).2 k⟩
    · have e : ∀ q, makeFlexText (flexGroup p) (flexFormat p) a (flexChannel p) (flexStatusBank p) (flexStatus p) t ≠ .ok q := by
        intro q
        unfold makeFlexText
        have a2 : ((decide (flexFormat p = .complete) || decide (flexFormat p = .fin)) || decide (t.length = 12)) = true := by
          rw [Bool.or_eq_true, Bool.or_eq_true, decide_eq_true_eq, decide_eq_true_eq, decide_eq_true_eq]
          exact or_assoc.2 hf
        rw [decide_eq_true h2, a2]
        simp only [assert_ok, ok_bind]
        rw [flexMessage_rejects hv]
        intro k; cases k
      exact ⟨fun ⟨q, hx, _⟩ => absurd hx (e q), fun hy => absurd hy.1 hv⟩
  · have hf' : (flexFormat p = .start ∨ flexFormat p = .cont) ∧ t.length ≠ 12 := by
      rw [not_or, not_or] at hf
      refine ⟨?_, hf.2.2⟩
      cases hx : flexFormat p
      · exact absurd hx hf.1
      · exact .inl rfl
      · exact .inr rfl
      · exact absurd hx hf.2.1
    rw [C46_text_length _ _ _ _ _ _ _ (.inr hf')]
    exact ⟨fun ⟨_, hx, _⟩ => (by cases hx), fun hy => absurd hy.2.2 hf⟩

example : ((⟨0xD3000101, 0x41626300, 0, 0⟩ : Packet).byteAt 0).toNat / 16 = 13 ∧
    Address.channel.code = flexAddressCode ⟨0xD3000101, 0x41626300, 0, 0⟩ ∧ ZeroPadded 4 ⟨0xD3000101, 0x41626300, 0, 0⟩ ∧
    flexFormat ⟨0xD3000101, 0x41626300, 0, 0⟩ = .complete := by decide

end Midi
