import Verif.Lemmas.NameText
import Verif.Model.FlexData
import Verif.Props.Stream

/-!
# C46: flex data messages
-/

namespace Midi
open Spec

attribute [local irreducible] packetOf

/-- The code of the address: 0 for a channel, 1 for a group. -/
def Spec.addressCode : Address → Byte
  | .channel => 0
  | .group => 1

/-- The arguments `make_flex_data_message` accepts: the channel is below 16, and 0 unless a channel is addressed. -/
def Spec.ValidAddress (address : Address) (channel : Byte) : Prop := channel < 16 ∧ (address = .channel ∨ channel = 0)

instance (a : Address) (c : Byte) : Decidable (ValidAddress a c) := inferInstanceAs (Decidable (_ ∧ _))

/-- The header of a flex data message. -/
def Spec.flexHeader (group : Byte) (format : Format) (address : Address) (channel bank status : Byte) : List Byte :=
  [0xD0 + group, format.code * 64 + addressCode address * 16 + channel, bank, status]

theorem flex_word (group : Byte) (format : Format) (address : Address) (channel bank status : Byte) (hg : group < 16)
    (hc : channel < 16) :
    ((0xD0000000 : Word) ||| ((group &&& 0x0F).setWidth 32 <<< 24) |||
      (((format.code.setWidth 32 <<< 6) ||| (address.code.setWidth 32 <<< 4) ||| (channel &&& 0x0F).setWidth 32) <<< 16) |||
      (bank.setWidth 32 <<< 8) ||| status.setWidth 32 : Word) =
    wordOf (0xD0 + group) (format.code * 64 + addressCode address * 16 + channel) bank status := by
  have e1 : 0xD0 + group = 0xD0 ||| (group &&& 0x0F) := by clear hc; revert hg; revert group; decide +kernel
  have e2 : format.code * (64 : Byte) + addressCode address * (16 : Byte) + channel =
      (format.code <<< 6) ||| (address.code <<< 4) ||| (channel &&& 0x0F) := by
    clear e1 hg
    cases format <;> cases address <;> (revert hc; revert channel; decide +kernel)
  rw [e1, e2]
  cases format <;> cases address <;> (simp only [Format.code, Address.code]; unfold wordOf; bits)

theorem flexMessage_eq (group : Byte) (format : Format) (address : Address) (channel bank status : Byte) (d1 d2 d3 : Word)
    (hg : group < 16) (hv : ValidAddress address channel) :
    flexMessage group format address channel bank status d1 d2 d3 =
      .ok ⟨wordOf (0xD0 + group) (format.code * 64 + addressCode address * 16 + channel) bank status, d1, d2, d3⟩ := by
  unfold flexMessage
  have a1 : decide (channel ≤ 15) = true := by
    have := hv.1; clear hv; revert this; revert channel; decide +kernel
  have a2 : (decide (address = .channel) || decide (channel = 0)) = true := by
    rw [Bool.or_eq_true, decide_eq_true_eq, decide_eq_true_eq]; exact hv.2
  rw [a1, a2, ← flex_word _ _ _ _ _ _ hg hv.1]
  rfl

theorem flexMessage_zero (group : Byte) (format : Format) (address : Address) (channel bank status : Byte)
    (hg : group < 16) (hv : ValidAddress address channel) :
    flexMessage group format address channel bank status 0 0 0 =
      .ok (packetOf (flexHeader group format address channel bank status)) := by
  rw [flexMessage_eq _ _ _ _ _ _ _ _ _ hg hv]
  unfold packetOf
  simp only [wordOfBytes_eq, flexHeader, List.getD_cons_succ, List.getD_cons_zero, List.getD_nil]
  rfl

/-- C46: exactly the packets of type 13 are flex data messages. -/
theorem C46_view (p : Packet) : asFlexData p = .ok (if (p.byteAt 0).toNat / 16 = 13 then some p else none) := by
  unfold asFlexData
  by_cases h : (p.byteAt 0).toNat / 16 = 13
  · have h1 : (p.type == PacketType.flexData) = true := (type_beq_iff p _).2 h
    rw [isFlexDataMessage, h1, if_pos rfl, if_pos h, flexView, h1]; rfl
  · rw [isFlexDataMessage, if_neg h, if_neg fun h' => h ((type_beq_iff p PacketType.flexData).1 h')]

theorem flex_views (group : Byte) (format : Format) (address : Address) (channel : Byte) (hg : group < 16)
    (hc : channel < 16) (p : Packet) (h0 : p.byteAt 0 = 0xD0 + group)
    (h1 : p.byteAt 1 = format.code * 64 + addressCode address * 16 + channel) :
    (p.byteAt 0).toNat / 16 = 13 ∧ flexGroup p = group ∧ flexFormat p = format ∧ flexAddressCode p = addressCode address ∧
      flexChannel p = channel := by
  have e1 : (0xD0 + group).toNat / 16 = 13 ∧ (0xD0 + group) &&& 0x0F = group := by
    clear hc h0 h1; revert hg; revert group; decide +kernel
  have e2 : Format.ofCode (((format.code * 64 + addressCode address * 16 + channel) &&& 0xC0) >>> 6) = format ∧
      ((format.code * 64 + addressCode address * 16 + channel) &&& 0x30) >>> 4 = addressCode address ∧
      (format.code * 64 + addressCode address * 16 + channel) &&& 0x0F = channel := by
    clear e1 hg h0 h1
    cases format <;> cases address <;> (revert hc; revert channel; decide +kernel)
  refine ⟨by rw [h0]; exact e1.1, ?_, ?_, ?_, ?_⟩
  · rw [flexGroup, Packet.group_eq, h0]; exact e1.2
  · rw [flexFormat, Packet.byte2_eq, h1]; exact e2.1
  · rw [flexAddressCode, Packet.byte2_eq, h1]; exact e2.2.1
  · rw [flexChannel, Packet.byte2_eq, h1]; exact e2.2.2

/-- C46: a flex data message returns everything it is made of. -/
theorem C46_flex_data (group : Byte) (format : Format) (address : Address) (channel bank status : Byte) (d1 d2 d3 : Word)
    (hg : group < 16) (hv : ValidAddress address channel) :
    ∃ p, makeFlexData group format address channel bank status d1 d2 d3 = .ok p ∧
      asFlexData p = .ok (some p) ∧ flexGroup p = group ∧ flexFormat p = format ∧
      flexAddressCode p = addressCode address ∧ flexChannel p = channel ∧ flexStatusBank p = bank ∧ flexStatus p = status ∧
      flexData p = (d1, d2, d3) := by
  refine ⟨_, flexMessage_eq _ _ _ _ _ _ _ _ _ hg hv, ?_⟩
  generalize hp : (⟨wordOf (0xD0 + group) (format.code * 64 + addressCode address * 16 + channel) bank status, d1, d2, d3⟩ :
    Packet) = p
  have w : p.w0 = wordOf (0xD0 + group) (format.code * 64 + addressCode address * 16 + channel) bank status := by rw [← hp]
  have b0 : p.byteAt 0 = 0xD0 + group := by
    rw [Packet.byteAt_eq, show p.word (0 / 4) = p.w0 from rfl, w]; exact byteOf_wordOf_0 _ _ _ _
  have b1 : p.byteAt 1 = format.code * 64 + addressCode address * 16 + channel := by
    rw [Packet.byteAt_eq, show p.word (1 / 4) = p.w0 from rfl, w]; exact byteOf_wordOf_1 _ _ _ _
  have b2 : p.byteAt 2 = bank := by
    rw [Packet.byteAt_eq, show p.word (2 / 4) = p.w0 from rfl, w]; exact byteOf_wordOf_2 _ _ _ _
  have b3 : p.byteAt 3 = status := by
    rw [Packet.byteAt_eq, show p.word (3 / 4) = p.w0 from rfl, w]; exact byteOf_wordOf_3 _ _ _ _
  obtain ⟨v1, v2, v3, v4, v5⟩ := flex_views group format address channel hg hv.1 p b0 b1
  refine ⟨by rw [C46_view, if_pos v1], v2, v3, v4, v5, ?_, ?_, ?_⟩
  · rw [flexStatusBank, Packet.byte3_eq, b2]
  · rw [flexStatus, Packet.byte4_eq, b3]
  · rw [← hp]; rfl

example := C46_flex_data 3 .complete .channel 5 0 2 1 2 3 (by decide) (by decide)

/-- C46: a channel above 15, or one other than 0 for a group, fails the assertion. -/
theorem C46_invalid_address (group : Byte) (format : Format) (address : Address) (channel bank status : Byte)
    (d1 d2 d3 : Word) (h : ¬ ValidAddress address channel) :
    makeFlexData group format address channel bank status d1 d2 d3 = .error .assertFailed := by
  unfold makeFlexData flexMessage
  by_cases hc : channel ≤ 15
  · have : ¬ (address = .channel ∨ channel = 0) := fun h' => h ⟨by
      clear h h'; revert hc; revert channel; decide +kernel, h'⟩
    have a2 : (decide (address = .channel) || decide (channel = 0)) = false := by
      rw [← Bool.not_eq_true, Bool.or_eq_true, decide_eq_true_eq, decide_eq_true_eq]; exact this
    rw [decide_eq_true hc, a2]; rfl
  · rw [decide_eq_false hc]; rfl

example := C46_invalid_address 3 .complete .group 5 0 2 1 2 3 (by decide)

/-- C46: a text of at most 12 characters, of exactly 12 in start and continue messages, is behind the header in the packet,
and reads back unless it contains a NUL. -/
theorem C46_text (group : Byte) (format : Format) (address : Address) (channel bank status : Byte) (text : List Byte)
    (hg : group < 16) (hv : ValidAddress address channel) (hl : text.length ≤ 12)
    (hf : format = .complete ∨ format = .fin ∨ text.length = 12) :
    ∃ p, makeFlexText group format address channel bank status text = .ok p ∧
      asFlexData p = .ok (some p) ∧ flexGroup p = group ∧ flexFormat p = format ∧
      flexAddressCode p = addressCode address ∧ flexChannel p = channel ∧ flexStatusBank p = bank ∧ flexStatus p = status ∧
      textBytes 4 p = text ++ List.replicate (12 - text.length) 0 ∧
      ((∀ c ∈ text, c ≠ 0) → flexPayloadAsString p = .ok text) := by
  have e : makeFlexText group format address channel bank status text =
      .ok (packetOf (flexHeader group format address channel bank status ++ text)) := by
    unfold makeFlexText
    have a2 : ((decide (format = .complete) || decide (format = .fin)) || decide (text.length = 12)) = true := by
      rw [Bool.or_eq_true, Bool.or_eq_true, decide_eq_true_eq, decide_eq_true_eq, decide_eq_true_eq]
      exact or_assoc.2 hf
    rw [decide_eq_true hl, a2]
    simp only [assert_ok, ok_bind]
    rw [flexMessage_zero _ _ _ _ _ _ hg hv, ok_bind]
    exact storeText8 text (flexHeader group format address channel bank status) (by simp [flexHeader]; omega)
  refine ⟨_, e, ?_⟩
  have hlen : (flexHeader group format address channel bank status).length = 4 := rfl
  have b0 := byteAt_packetOf (flexHeader group format address channel bank status ++ text) (i := 0) (by omega)
  have b1 := byteAt_packetOf (flexHeader group format address channel bank status ++ text) (i := 1) (by omega)
  obtain ⟨v1, v2, v3, v4, v5⟩ := flex_views group format address channel hg hv.1 _ b0 b1
  refine ⟨by rw [C46_view, if_pos v1], v2, v3, v4, v5, byte3_packetOf _, byte4_packetOf _, ?_, ?_⟩
  · exact textBytes_packetOf (flexHeader group format address channel bank status) text (by omega)
  · intro hc
    exact readText8 12 (flexHeader group format address channel bank status) text (by omega) hl hc

example := C46_text 3 .fin .channel 5 1 2 [0x41, 0x42] (by decide) (by decide) (by decide) (by decide)

/-- C46: texts that are too long, and shorter ones in start and continue messages, fail the assertion. -/
theorem C46_text_length (group : Byte) (format : Format) (address : Address) (channel bank status : Byte) (text : List Byte)
    (h : 12 < text.length ∨ (format = .start ∨ format = .cont) ∧ text.length ≠ 12) :
    makeFlexText group format address channel bank status text = .error .assertFailed := by
  unfold makeFlexText
  by_cases hl : text.length ≤ 12
  · obtain ⟨hf, hn⟩ := h.resolve_left (by omega)
    have a2 : ((decide (format = .complete) || decide (format = .fin)) || decide (text.length = 12)) = false := by
      rw [decide_eq_false hn]
      rcases hf with rfl | rfl <;> rfl
    rw [decide_eq_true hl, a2]; rfl
  · rw [decide_eq_false hl]; rfl

/-- C46: the bytes of the setup messages: tempo, time signature, metronome, key signature and chord name. -/
theorem C46_setup (group : Byte) (hg : group < 16) :
    (∀ tempo : Word, ∃ p, makeSetTempo group tempo = .ok p ∧ flexData p = (tempo, 0, 0) ∧
      p.w0 = wordOfBytes (0xD0 + group) 0x10 0x00 0x00) ∧
    (∀ numerator denominator n : Byte, makeSetTimeSignature group numerator denominator n =
      .ok (packetOf [0xD0 + group, 0x10, 0x00, 0x01, numerator, denominator, n])) ∧
    (∀ clocks a1 a2 a3 s1 s2 : Byte, makeSetMetronome group clocks a1 a2 a3 s1 s2 =
      .ok (packetOf [0xD0 + group, 0x10, 0x00, 0x02, clocks, a1, a2, a3, s1, s2])) ∧
    (∀ (address : Address) (channel sharps tonic : Byte), ValidAddress address channel → sharps < 16 → tonic < 16 →
      makeSetKeySignature group address channel sharps tonic =
      .ok (packetOf [0xD0 + group, addressCode address * 16 + channel, 0x00, 0x05, sharps * 16 + tonic])) ∧
    (∀ (address : Address) (channel : Byte) (d1 d2 d3 : Word), ValidAddress address channel →
      makeSetChord group address channel d1 d2 d3 =
      .ok ⟨wordOfBytes (0xD0 + group) (addressCode address * 16 + channel) 0x00 0x06, d1, d2, d3⟩) := by
  have hv : ValidAddress .group 0 := by decide
  have hc : ∀ (address : Address) (channel : Byte),
      Format.complete.code * 64 + addressCode address * 16 + channel = addressCode address * 16 + channel := by
    intro a c; cases a <;> (revert c; decide +kernel)
  have h0 : ∀ status, makeFlexData group .complete .group 0 0x00 status 0 0 0 = .ok (packetOf [0xD0 + group, 0x10, 0x00, status]) :=
    fun status => flexMessage_zero group .complete .group 0 0 status hg hv
  refine ⟨fun tempo => ⟨_, flexMessage_eq group .complete .group 0 0 0 tempo 0 0 hg hv, rfl, ?_⟩, fun a b c => ?_,
    fun a b c d e f => ?_, fun address channel sharps tonic hv hs ht => ?_, fun address channel d1 d2 d3 hv => ?_⟩
  · rw [wordOfBytes_eq]; rfl
  · unfold makeSetTimeSignature
    rw [h0, ok_bind, setByte_packetOf _ 4 _ (by omega) (by simp), ok_bind, setByte_packetOf _ 5 _ (by omega) (by simp), ok_bind,
      setByte_packetOf _ 6 _ (by omega) (by simp)]
    simp only [List.cons_append, List.nil_append, List.length_cons, List.length_nil, Nat.reduceAdd, Nat.reduceSub,
      List.replicate]
  · unfold makeSetMetronome
    rw [h0, ok_bind, setByte_packetOf _ 4 _ (by omega) (by simp), ok_bind, setByte_packetOf _ 5 _ (by omega) (by simp), ok_bind,
      setByte_packetOf _ 6 _ (by omega) (by simp), ok_bind, setByte_packetOf _ 7 _ (by omega) (by simp), ok_bind,
      setByte_packetOf _ 8 _ (by omega) (by simp), ok_bind, setByte_packetOf _ 9 _ (by omega) (by simp)]
    simp only [List.cons_append, List.nil_append, List.length_cons, List.length_nil, Nat.reduceAdd, Nat.reduceSub,
      List.replicate]
  · unfold makeSetKeySignature makeFlexData
    have e : (sharps <<< 4) ||| (tonic &&& 0x0F) = sharps * 16 + tonic := by
      have e1 : sharps * (16 : Byte) = sharps <<< 4 := by clear hs ht; revert sharps; decide +kernel
      have e2 : tonic &&& 0x0F = tonic := and0F ht
      rw [e1, e2, BitVec.add_eq_or_of_and_eq_zero]
      rw [← e2]; bits
    rw [flexMessage_zero _ _ _ _ _ _ hg hv, ok_bind, setByte_packetOf _ 4 _ (by omega) (by simp [flexHeader]), e]
    simp only [flexHeader, hc, List.cons_append, List.nil_append, List.length_cons, List.length_nil, Nat.reduceAdd,
      Nat.reduceSub, List.replicate]
  · unfold makeSetChord makeFlexData
    rw [flexMessage_eq _ _ _ _ _ _ _ _ _ hg hv, hc, wordOfBytes_eq]

example : ValidAddress .channel 15 ∧ ValidAddress .group 0 ∧ ¬ ValidAddress .group 1 := by decide
example : makeFlexText 3 .complete .channel 2 1 4 [72, 105] = .ok ⟨0xD3020104, 0x48690000, 0, 0⟩ := rfl

end Midi
