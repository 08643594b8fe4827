import Verif.Props.Dispatch
import Verif.Props.Prompt
import Verif.Props.Stream
import Verif.Props.TranslationOrder
import Verif.Props.TranslationChain
import Verif.Spec.Actions

/-!
# Property C97: what the documented message processor plays
-/

namespace Midi
open Spec

theorem byteAt_status (p : Packet) : p.byteAt 1 = p.status := by simp only [Packet.status, Packet.byte2, Packet.byteAt, Packet.word]
theorem byteAt_3 (p : Packet) : p.byteAt 2 = p.byte3 := by simp only [Packet.byte3, Packet.byteAt, Packet.word]
theorem byteAt_4 (p : Packet) : p.byteAt 3 = p.byte4 := by simp only [Packet.byte4, Packet.byteAt, Packet.word]; bits

theorem and7F_ofNat (b : Byte) : b &&& 0x7F = BitVec.ofNat 8 (b.toNat % 128) := by
  revert b; decide +kernel

theorem and7F_small {b : Byte} (h : b.toNat < 128) : b &&& 0x7F = b := by
  rw [and7F_ofNat, Nat.mod_eq_of_lt h]; exact BitVec.eq_of_toNat_eq (by simp)

theorem ofNat_of_toNat {n m : Nat} {v : BitVec n} (h : v.toNat = m) : v = BitVec.ofNat n m := by
  rw [← h]; exact BitVec.eq_of_toNat_eq (by simp)

theorem plainPitch_eq (b : Byte) : pitch79OfNote b = plainPitch b.toNat := by revert b; decide +kernel

/-- The filters of the processor, from the message type and the upper half of the status. -/
theorem filter_values (p : Packet) :
    isNoteOn p = ((p.status &&& 0xF0 == 0x90 && (p.type == 2 || p.type == 4)) && (p.type == 4 || !(p.byte4 == 0))) ∧
    isNoteOff p = ((p.status &&& 0xF0 == 0x80 && (p.type == 2 || p.type == 4)) || (p.type == 2 && p.status &&& 0xF0 == 0x90 && p.byte4 == 0)) ∧
    isPolyPressure p = (p.status &&& 0xF0 == 0xA0 && (p.type == 2 || p.type == 4)) ∧
    isRegisteredPerNote p = (p.type == 4 && p.status &&& 0xF0 == 0x00) ∧
    isPerNotePitchBend p = (p.type == 4 && p.status &&& 0xF0 == 0x60) ∧
    isControlChange p = (p.status &&& 0xF0 == 0xB0 && (p.type == 2 || p.type == 4)) ∧
    isPitchBend p = (p.status &&& 0xF0 == 0xE0 && (p.type == 2 || p.type == 4)) := by
  have hf := filters_eq p
  simp only [filters, filterBits, List.map_cons, List.map_nil, List.cons.injEq, byteAt_status] at hf
  obtain ⟨e1, e2, e3, e4, -, -, e7, -, -, e10, -, e12, -⟩ := hf
  exact ⟨e1, e2, e3, e10, e12, e4, e7⟩

theorem nibble_cases (s : Byte) : ∃ k, k < 16 ∧ s &&& 0xF0 = BitVec.ofNat 8 (16 * k) ∧ s.toNat / 16 = k :=
  ⟨s.toNat / 16, by have := s.isLt; omega, (status_nibble s _ (by simp)).2 (by
    have := s.isLt; rw [BitVec.toNat_ofNat, Nat.mod_eq_of_lt (by omega)]; omega), rfl⟩

/-- C97: the documented message processor does for every packet what is to be played for it, as long as the data bytes of MIDI 1
messages have seven bits. -/
theorem C97_played (p : Packet) (h : (p.byteAt 0).toNat / 16 = 2 → p.byteAt 2 < 0x80 ∧ p.byteAt 3 < 0x80) :
    processor p = .ok (played p) := by
  obtain ⟨f1, f2, f3, f4, f5, f6, f7⟩ := filter_values p
  obtain ⟨k, hk, hs, ho⟩ := nibble_cases p.status
  have ht := type_toNat p
  have hk' : k = 0 ∨ k = 1 ∨ k = 2 ∨ k = 3 ∨ k = 4 ∨ k = 5 ∨ k = 6 ∨ k = 7 ∨ k = 8 ∨ k = 9 ∨ k = 10 ∨ k = 11 ∨ k = 12 ∨ k = 13 ∨
      k = 14 ∨ k = 15 := by omega
  unfold processor played
  rw [byteAt_status, byteAt_3, byteAt_4] at *
  rw [ho, f1, f2, f3, f4, f5, f6, f7, hs, ht]
  by_cases t2 : p.type = 2
  · obtain ⟨h3, h4⟩ := h (by rw [ht, t2]; rfl)
    rw [BitVec.lt_def] at h3 h4
    have e3 := and7F_small h3
    have e4 := and7F_small h4
    have n : ∀ b : Byte, b = BitVec.ofNat 8 b.toNat := fun b => ofNat_of_toNat rfl
    have v := ofNat_of_toNat (velocityOf7_value p.byte4 (by rw [BitVec.lt_def]; exact h4))
    have c := ofNat_of_toNat (controllerOf7_value p.byte4 (by rw [BitVec.lt_def]; exact h4))
    have gn : noteNr p = BitVec.ofNat 8 p.byte3.toNat := e3.trans (n _)
    have gc : controllerNr p = BitVec.ofNat 8 p.byte3.toNat := gn
    have gv : controllerValue p = BitVec.ofNat 32 (up7to32 p.byte4.toNat) := by
      unfold controllerValue; rw [if_pos (show p.type = PacketType.midi1ChannelVoice from t2), e4, c]
    have gz : p.status &&& 0xF0 = 0x90 → p.byte4 = 0 → noteVelocity p = 0x8000 := by
      intro a b
      unfold noteVelocity
      rw [if_neg (show ¬ p.type = PacketType.midi2ChannelVoice by rw [t2]; decide), if_pos ⟨t2, a, b⟩]; rfl
    have ge : ¬ (p.status &&& 0xF0 = 0x90 ∧ p.byte4 = 0) → noteVelocity p = BitVec.ofNat 16 (up7to16 p.byte4.toNat) := by
      intro a
      unfold noteVelocity
      rw [if_neg (show ¬ p.type = PacketType.midi2ChannelVoice by rw [t2]; decide), if_neg (fun h => a h.2), e4, v]
    have gp : notePitch p = plainPitch p.byte3.toNat := by
      unfold notePitch
      rw [if_neg (fun h => absurd (t2.symm.trans h.1) (by decide)), plainPitch_eq]
      unfold noteNr; rw [e3]
    rw [t2]
    rcases hk' with rfl | rfl | rfl | rfl | rfl | rfl | rfl | rfl | rfl | rfl | rfl | rfl | rfl | rfl | rfl | rfl
    case inr.inr.inr.inr.inr.inr.inr.inr.inl =>
      rw [gn, ge (fun h => absurd (hs.symm.trans h.1) (by decide))]
      rfl
    case inr.inr.inr.inr.inr.inr.inr.inr.inr.inl =>
      by_cases hz : p.byte4 = 0
      · rw [gn, gz hs hz, hz]; rfl
      · have hz' : p.byte4.toNat ≠ 0 := fun e => hz (BitVec.eq_of_toNat_eq e)
        rw [gn, ge (fun h => hz h.2), gp, show (p.byte4 == 0) = false from beq_eq_false_iff_ne.2 hz]
        show Except.ok _ = Except.ok (if p.byte4.toNat = 0 then _ else _)
        rw [if_neg hz']
    case inr.inr.inr.inr.inr.inr.inr.inr.inr.inr.inr.inr.inr.inr.inl =>
      have hl : (p.byte3.setWidth 16 ||| (p.byte4.setWidth 16 <<< 7) : U16).toNat = p.byte3.toNat + 128 * p.byte4.toNat := by
        have := toNat_of14 p.byte3 p.byte4
        rw [e3, e4, Nat.mod_eq_of_lt (show p.byte3.toNat < 128 from h3), Nat.mod_eq_of_lt (show p.byte4.toNat < 128 from h4)] at this
        exact this
      obtain ⟨r, hr, hv⟩ := pitchBendOf14_value (p.byte3.setWidth 16 ||| (p.byte4.setWidth 16 <<< 7)) (by rw [hl]; simp at h3 h4; omega)
      rw [hl] at hv
      have gb : pitchBendValue p = .ok (BitVec.ofNat 32 (up14to32 (p.byte3.toNat + 128 * p.byte4.toNat))) := by
        unfold pitchBendValue; rw [if_pos (show p.type = PacketType.midi1ChannelVoice from t2), hr, ofNat_of_toNat hv]
      rw [gb]; rfl
    all_goals first | rfl | (rw [gn, gv]; rfl) | (rw [gc, gv]; rfl)
  · by_cases t4 : p.type = 4
    · have gv : noteVelocity p = BitVec.ofNat 16 (p.w1.toNat / 2 ^ 16) := by
        unfold noteVelocity; rw [if_pos (show p.type = PacketType.midi2ChannelVoice from t4)]
        exact BitVec.eq_of_toNat_eq (by simp [Nat.shiftRight_eq_div_pow])
      have gn : noteNr p = BitVec.ofNat 8 (p.byte3.toNat % 128) := and7F_ofNat _
      have gc : controllerNr p = BitVec.ofNat 8 (p.byte3.toNat % 128) := gn
      have n : ∀ b : Byte, b = BitVec.ofNat 8 b.toNat := fun b => ofNat_of_toNat rfl
      have w : p.w1 = BitVec.ofNat 32 (p.word 1).toNat := ofNat_of_toNat rfl
      have gw : controllerValue p = BitVec.ofNat 32 (p.word 1).toNat := by
        unfold controllerValue; rw [if_neg (show ¬ p.type = PacketType.midi1ChannelVoice from t2), ← w]
      have gb : pitchBendValue p = .ok (BitVec.ofNat 32 (p.word 1).toNat) := by
        unfold pitchBendValue; rw [if_neg (show ¬ p.type = PacketType.midi1ChannelVoice from t2), ← w]
      have gi : perNoteControllerIndex p = BitVec.ofNat 8 p.byte4.toNat := n _
      have gq : perNotePitchBendValue p = BitVec.ofNat 32 (p.word 1).toNat := w
      have l : (p.w1 &&& 0xFFFF).setWidth 16 = BitVec.ofNat 16 (p.w1.toNat % 2 ^ 16) := by
        rw [show (0xFFFF : Word) = BitVec.ofNat 32 (2 ^ 16 - 1) from rfl]
        apply BitVec.eq_of_toNat_eq
        simp [Nat.and_two_pow_sub_one_eq_mod (n := 16)]
      have gp : p.status &&& 0xF0 = 0x90 → notePitch p = if p.byte4.toNat = 3 then BitVec.ofNat 16 ((p.word 1).toNat % 2 ^ 16)
          else plainPitch (p.byte3.toNat % 128) := by
        intro a
        unfold notePitch
        by_cases h3 : p.byte4 = 3
        · rw [if_pos ⟨t4, a, h3⟩, if_pos (by rw [h3]; rfl), l]; rfl
        · rw [if_neg (fun h => h3 h.2.2), if_neg (show ¬ p.byte4.toNat = 3 from fun e => h3 (BitVec.eq_of_toNat_eq e)), plainPitch_eq, gn, BitVec.toNat_ofNat,
            Nat.mod_eq_of_lt (by omega)]
      rw [t4]
      rcases hk' with rfl | rfl | rfl | rfl | rfl | rfl | rfl | rfl | rfl | rfl | rfl | rfl | rfl | rfl | rfl | rfl
      case inr.inr.inr.inr.inr.inr.inr.inr.inr.inl => rw [gn, gv, gp hs]; rfl
      all_goals first
        | rfl | (rw [gn, gv]; rfl) | (rw [gn, gw]; rfl) | (rw [gc, gw]; rfl) | (rw [gb]; rfl) | (rw [gn, gi, gw]; rfl) | (rw [gn, gq]; rfl)
    · have a2 : (p.type == 2) = false := beq_eq_false_iff_ne.2 t2
      have a4 : (p.type == 4) = false := beq_eq_false_iff_ne.2 t4
      rw [a2, a4]
      simp only [Bool.or_false, Bool.and_false, Bool.false_and, Bool.false_eq_true, if_false]
      split
      · exact absurd (BitVec.eq_of_toNat_eq (y := 2) (by assumption)) t2
      · exact absurd (BitVec.eq_of_toNat_eq (y := 4) (by assumption)) t4
      · rfl

/-- C97: a MIDI 1 note, a note with its own pitch and a per note pitch bend, played by the processor. -/
example : processor ⟨0x23903C64, 0, 0, 0⟩ = .ok (.allocateVoice 60 0xC924 0x7800) ∧
    processor ⟨0x43903C03, 0x80007A00, 0, 0⟩ = .ok (.allocateVoice 60 0x8000 0x7A00) ∧
    processor ⟨0x43603C00, 0x90000000, 0, 0⟩ = .ok (.voicePitchBend 60 0x90000000) :=
  ⟨C97_played _ (by decide), C97_played _ (by decide), C97_played _ (by decide)⟩

/-- C97: the documented combination of a byte stream parser with the processor as packet callback is safe, whatever bytes are fed in
whichever blocks, and plays for each packet what is to be played for it: the packets of the parser are among those the processor is
defined for. -/
theorem C97_after_parser (g : Byte) (cb on : Bool) (ops : List Parser.Op) (hg : g < 16) (hv : ValidGroups ops) :
    ∃ p es, (Parser.new g cb on).run ops = .ok (p, es) ∧ (packetsOf es).mapM processor = .ok ((packetsOf es).map played) := by
  obtain ⟨p, es, e, h, -⟩ := C25_parser_output g cb on ops hg hv
  refine ⟨p, es, e, ?_⟩
  have : ∀ q ∈ packetsOf es, processor q = .ok (played q) := by
    intro q hq
    obtain ⟨e, he, hq⟩ := List.mem_filterMap.1 hq
    cases e with
    | sysex _ => cases hq
    | packet r =>
    cases hq
    obtain ⟨w, -⟩ := h q he
    exact C97_played q fun _ => ⟨w.data 2 (by decide) (by decide), w.data 3 (by decide) (by decide)⟩
  exact mapM_ok this

/-- C97: a note on a parser of group 3. -/
example : ∃ p es, (Parser.new 3 false true).run [.feed [0x90, 60], .feed [0x64]] = .ok (p, es) ∧
    (packetsOf es).mapM processor = .ok [.allocateVoice 60 0xC924 0x7800] := by
  obtain ⟨p, es, e, h⟩ := C97_after_parser 3 false true [.feed [0x90, 60], .feed [0x64]] (by decide) (by simp [ValidGroups])
  refine ⟨p, es, e, ?_⟩
  rw [h]
  cases e
  decide

/-- What is to be played for a short message of a byte stream. -/
theorem played_short {g s : Byte} {d : List Byte} (hg : g < 16) (hs : shortStatus s) :
    played (shortMessage g s d) = midi1Action (s.toNat / 16) (d.getD 0 0).toNat (d.getD 1 0).toNat := by
  unfold played
  rw [byteAt_short_0, shortHead_type hg, byteAt_short_1, shortMessage_data _ _ _ (by omega) (by omega),
    shortMessage_data _ _ _ (by omega) (by omega)]
  by_cases h : s < 0xF0
  · rw [if_pos h]; rfl
  · rw [if_neg h]
    have : s.toNat / 16 = 15 := by
      have := s.isLt
      rw [BitVec.lt_def] at h
      simp at h
      omega
    rw [this]
    rfl

theorem processor_short {g s : Byte} {d : List Byte} (hg : g < 16) (hs : shortStatus s) (hd : ∀ x ∈ d, x < 0x80) :
    processor (shortMessage g s d) = .ok (midi1Action (s.toNat / 16) (d.getD 0 0).toNat (d.getD 1 0).toNat) := by
  have small : ∀ i, d.getD i 0 < 0x80 := by
    intro i
    rw [List.getD_eq_getElem?_getD]
    by_cases h : i < d.length
    · rw [List.getElem?_eq_getElem h]; exact hd _ (List.getElem_mem h)
    · rw [List.getElem?_eq_none (by omega)]; decide
  rw [C97_played _ fun _ => ⟨by rw [shortMessage_data _ _ _ (by omega) (by omega)]; exact small _,
    by rw [shortMessage_data _ _ _ (by omega) (by omega)]; exact small _⟩, played_short hg hs]

/-- The events of a block. -/
theorem stepBytes_block (c : Settings) (hon : c.enabled = true) (st : StreamState) (b : Block) (h : b.Complete) :
    (stepBytes c st b.bytes).2 = b.data.map fun d => .packet (shortMessage c.group b.status d) := by
  obtain ⟨hk, hd⟩ := h
  obtain ⟨s, ds⟩ := b
  dsimp only [Block.bytes] at *
  rcases hk with ⟨h1, h2, h3⟩ | ⟨h1, h2⟩
  · have n8 : ¬ s ≥ 0xF8 := by clear hd h3; revert h1 h2; revert s; decide +kernel
    have n0 : dataBytes s ≠ 0 := by clear hd h3; revert h1 h2; revert s; decide +kernel
    have a1 : ∀ ms : List (List Byte), (∀ m ∈ ms, m.length = dataBytes s ∧ ∀ b ∈ m, b < 0x80) →
        stepBytes c (.message c.group s []) ms.flatten =
          (.message c.group s [], ms.map fun m => .packet (shortMessage c.group s m)) := by
      intro ms
      induction ms with
      | nil => intro _; rfl
      | cons m ms ih =>
        intro h
        obtain ⟨hl, hb⟩ := h m (by simp)
        have hne : m ≠ [] := by rintro rfl; exact n0 hl.symm
        rw [List.flatten_cons, stepBytes_append, stepBytes_data _ _ _ m [] hb hne (by simpa using hl), if_pos h2,
          ih (fun m hm => h m (by simp [hm]))]
        simp [hon]
    rw [stepBytes_cons, step_new _ _ n8 n0, a1 ds hd]
    rfl
  · obtain ⟨d, rfl⟩ := List.length_eq_one_iff.1 h2
    obtain ⟨hl, hb⟩ := hd d (by simp)
    have := stepBytes_short c hon st (Or.inl h1) hl hb
    simpa using this

theorem Spec.Block.Complete.short {b : Block} (h : b.Complete) : shortStatus b.status :=
  h.1.elim (fun h => Or.inr ⟨h.1, h.2.1⟩) fun h => Or.inl h.1

/-- The events of blocks. -/
theorem stepBytes_blocks (c : Settings) (hon : c.enabled = true) (bs : List Block) (h : ∀ b ∈ bs, b.Complete) : ∀ st,
    (stepBytes c st (bs.flatMap Block.bytes)).2 =
      (bs.flatMap fun b => b.data.map fun d => shortMessage c.group b.status d).map .packet := by
  induction bs with
  | nil => intro _; rfl
  | cons b bs ih =>
    intro st
    rw [List.flatMap_cons, stepBytes_append, stepBytes_block _ hon st b (h b (by simp)), ih fun b hb => h b (by simp [hb]),
      List.flatMap_cons, List.map_append, List.map_map]
    rfl

theorem played_blocks {g : Byte} (hg : g < 16) (bs : List Block) (h : ∀ b ∈ bs, b.Complete) :
    (bs.flatMap fun b => b.data.map fun d => shortMessage g b.status d).map played = bs.flatMap Block.actions := by
  rw [List.map_flatMap]
  induction bs with
  | nil => rfl
  | cons b bs ih =>
    have e : (b.data.map fun d => shortMessage g b.status d).map played = b.actions := by
      rw [Block.actions, List.map_map]
      refine List.map_congr_left fun d _ => ?_
      rw [Function.comp_apply, played_short hg (h b (by simp)).short]
    rw [List.flatMap_cons, List.flatMap_cons, ih fun b hb => h b (by simp [hb]), e]

/-- C97: from any state of the parser, a byte stream of complete messages, with or without running status, is played as the
messages are to be: each message once, in order, with the values in the resolution of MIDI 2 and note on with velocity zero as
note off. -/
theorem C97_bytes (p : Parser) (hp : Reached p) (hon : p.invokeCallbacks = true) (bs : List Block) (h : ∀ b ∈ bs, b.Complete) :
    ∃ (p' : Parser) (ps : List Packet), p.feedAll (bs.flatMap Block.bytes) = .ok (p', ps.map .packet) ∧
      ps.mapM processor = .ok (bs.flatMap Block.actions) := by
  obtain ⟨st, r, -⟩ := reached_rel hp
  obtain ⟨p', e, -⟩ := feedAll_rel (bs.flatMap Block.bytes) r
  have hg : p.group < 16 := r.lt
  have k := stepBytes_blocks ⟨p.group, p.hasSysexCallback, p.invokeCallbacks⟩ hon bs h st
  rw [k] at e
  refine ⟨p', _, e, ?_⟩
  rw [← played_blocks hg bs h]
  refine mapM_ok fun q hq => ?_
  obtain ⟨b, hb, hq⟩ := List.mem_flatMap.1 hq
  obtain ⟨d, hd, rfl⟩ := List.mem_map.1 hq
  rw [processor_short hg (h b hb).short ((h b hb).2 d hd).2, played_short hg (h b hb).short]

/-- C97: two notes in running status, the first one ended by velocity zero, a clock and a pitch bend. -/
example : ∃ (p' : Parser) (ps : List Packet),
    (Parser.new 1 true true).feedAll [0x90, 60, 100, 62, 1, 60, 0, 0xF8, 0xE0, 0, 0x40] = .ok (p', ps.map .packet) ∧
      ps.mapM processor = .ok [.allocateVoice 60 0xC924 0x7800, .allocateVoice 62 0x0200 0x7C00, .releaseVoice 60 0x8000, .none,
        .channelPitchBend 0x80000000] :=
  C97_bytes _ ⟨1, true, true, [], [], by decide, by simp [ValidGroups], rfl⟩ rfl
    [⟨0x90, [[60, 100], [62, 1], [60, 0]]⟩, ⟨0xF8, [[]]⟩, ⟨0xE0, [[0, 0x40]]⟩] (by decide)

/-- The bytes of a MIDI 1 channel voice message. -/
theorem layout_bytes {r : Packet} {g o c d1 d2 : Nat} (h : Midi1Layout r g o c d1 d2) (hg : g < 16) (ho : o < 16) (hc : c < 16)
    (h1 : d1 < 256) (h2 : d2 < 256) : (r.byteAt 0).toNat / 16 = 2 ∧ (r.byteAt 1).toNat / 16 = o ∧ (r.byteAt 2).toNat = d1 ∧
      (r.byteAt 3).toNat = d2 := by
  have e := h.1
  have t : ∀ i, i < 4 → (r.byteAt i).toNat = r.w0.toNat / 2 ^ ((3 - i) * 8) % 256 := by
    intro i hi
    have := toNat_byteOf r.w0 i
    rw [← this]
    have : i = 0 ∨ i = 1 ∨ i = 2 ∨ i = 3 := by omega
    rcases this with rfl | rfl | rfl | rfl <;> rfl
  rw [t 0 (by omega), t 1 (by omega), t 2 (by omega), t 3 (by omega), e]
  refine ⟨?_, ?_, ?_, ?_⟩ <;> omega

/-- C97: what is played for the MIDI 1 counterpart of a MIDI 2 message is what is played for the message itself, in the resolution
of MIDI 1. -/
theorem C97_coarse (q r : Packet) (ht : q.type = 4) (h : asMidi1 q = some r) :
    processor q = .ok (played q) ∧ processor r = .ok (coarse (played q)) := by
  have hq := C97_played q (by rw [type_toNat, ht]; intro h; cases h)
  refine ⟨hq, ?_⟩
  have c := C10_translation q
  have hs := q.status.isLt
  have hw := q.w1.isLt
  generalize hm : midi1DataOfMidi2 (q.status.toNat / 16) (q.byte3.toNat % 128) (q.byte4.toNat % 128) q.w1.toNat = m at c
  rcases m with _ | ⟨d1, d2⟩
  · rw [show asMidi1 q = none from c] at h; cases h
  obtain ⟨r', e, l⟩ := c
  rw [e] at h
  cases h
  have gl : q.group.toNat < 16 := by have := Packet.group_lt q; rw [BitVec.lt_def] at this; exact this
  have hd : d1 < 128 ∧ d2 < 128 := by
    unfold midi1DataOfMidi2 at hm
    split at hm <;> (try split at hm) <;> simp at hm <;> omega
  obtain ⟨b0, b1, b2, b3⟩ := layout_bytes l gl (by omega) (by omega) (by omega) (by omega)
  rw [C97_played r fun _ => ⟨by rw [BitVec.lt_def, b2]; exact hd.1, by rw [BitVec.lt_def, b3]; exact hd.2⟩]
  congr 1
  unfold played
  rw [b0, b1, b2, b3, type_toNat, ht, byteAt_status, byteAt_3, byteAt_4]
  show midi1Action _ _ _ = coarse (midi2Action _ _ _ q.w1.toNat)
  have n : ∀ x, x < 128 → (BitVec.ofNat 8 x).toNat = x := fun x hx => by
    rw [BitVec.toNat_ofNat, Nat.mod_eq_of_lt (by omega)]
  have u : (BitVec.ofNat 16 (q.w1.toNat / 2 ^ 16)).toNat / 2 ^ 9 = q.w1.toNat / 2 ^ 25 := by
    rw [BitVec.toNat_ofNat]; omega
  have w : (BitVec.ofNat 32 q.w1.toNat).toNat = q.w1.toNat := by rw [BitVec.toNat_ofNat]; omega
  generalize ho : q.status.toNat / 16 = o at *
  have hk' : o = 0 ∨ o = 1 ∨ o = 2 ∨ o = 3 ∨ o = 4 ∨ o = 5 ∨ o = 6 ∨ o = 7 ∨ o = 8 ∨ o = 9 ∨ o = 10 ∨ o = 11 ∨ o = 12 ∨ o = 13 ∨
      o = 14 ∨ o = 15 := by omega
  rcases hk' with rfl | rfl | rfl | rfl | rfl | rfl | rfl | rfl | rfl | rfl | rfl | rfl | rfl | rfl | rfl | rfl <;>
    simp only [midi1DataOfMidi2] at hm <;> (try split at hm) <;> (try cases hm) <;>
    simp only [midi1Action, midi2Action, coarse, n _ (Nat.mod_lt _ (by decide : 128 > 0)), u, w]
  · rw [if_neg (by omega)]
  · congr 3; omega

/-- C97: a note on with a small velocity is played with the smallest one of MIDI 1. -/
example : processor ⟨0x43903C00, 0x00100000, 0, 0⟩ = .ok (.allocateVoice 60 0x0010 0x7800) ∧
    processor ⟨0x23903C01, 0, 0, 0⟩ = .ok (.allocateVoice 60 0x0200 0x7800) :=
  C97_coarse ⟨0x43903C00, 0x00100000, 0, 0⟩ _ rfl rfl

/-- C97: MIDI 2 channel voice messages sent over a MIDI 1 cable: at the other end, a parser in any state with the documented
processor plays for those with a MIDI 1 counterpart what the processor plays for the messages themselves, in the resolution of MIDI 1,
in order and nothing else. -/
theorem C97_over_cable (p : Parser) (hp : Reached p) (hon : p.invokeCallbacks = true) (ps : List Packet)
    (h : ∀ q ∈ ps, q.type = 4 ∧ q.group = p.group) :
    ∃ (as : List Action) (bss : List (List Byte)) (p' : Parser) (rs : List Packet),
      (ps.filter hasMidi1).mapM processor = .ok as ∧
      (ps.filterMap asMidi1).mapM toMidi1ByteStream = .ok bss ∧ p.feedAll bss.flatten = .ok (p', rs.map .packet) ∧
      rs.mapM processor = .ok (as.map coarse) := by
  obtain ⟨bss, p', e1, e2⟩ := C57_midi2_over_cable p hp hon ps fun q hq => (h q hq).2
  refine ⟨(ps.filter hasMidi1).map played, bss, p', _, ?_, e1, e2, ?_⟩
  · refine mapM_ok fun q hq => ?_
    exact C97_played q (by rw [type_toNat, (h q (List.mem_filter.1 hq).1).1]; intro h; cases h)
  have key : ∀ ps : List Packet, (∀ q ∈ ps, q.type = 4) →
      (ps.filterMap asMidi1).mapM processor = .ok (((ps.filter hasMidi1).map played).map coarse) := by
    intro ps
    induction ps with
    | nil => intro _; rfl
    | cons q ps ih =>
      intro h
      have ih := ih fun q hq => h q (by simp [hq])
      have hx : (asMidi1 q).isSome = hasMidi1 q := by
        have c := C10_translation q
        rw [hasMidi1, byteAt_status, byteAt_3, byteAt_4]
        show _ = Option.isSome (midi1DataOfMidi2 _ _ _ q.w1.toNat)
        generalize midi1DataOfMidi2 (q.status.toNat / 16) (q.byte3.toNat % 128) (q.byte4.toNat % 128) q.w1.toNat = m at c
        rcases m with _ | ⟨d1, d2⟩
        · rw [show asMidi1 q = none from c]; rfl
        · obtain ⟨r, e, -⟩ := c
          rw [e]; rfl
      generalize ha : asMidi1 q = a at hx
      rcases a with _ | r
      · rw [List.filterMap_cons_none ha, List.filter_cons_of_neg (by rw [← hx]; decide), ih]
      · rw [List.filterMap_cons_some ha, List.filter_cons_of_pos hx.symm, List.mapM_cons,
          (C97_coarse q r (h q (by simp)) ha).2, ok_bind, ih]
        rfl
  exact key ps fun q hq => (h q hq).1

/-- C97: a note with a fine velocity, a per note pitch bend, which has no MIDI 1 counterpart, and a controller. -/
example : ∃ (as : List Action) (bss : List (List Byte)) (p' : Parser) (rs : List Packet),
    ([⟨0x45903C00, 0x81230000, 0, 0⟩, ⟨0x45B00700, 0xFFFFFFFF, 0, 0⟩] : List Packet).mapM processor = .ok as ∧
    ([⟨0x25903C40, 0, 0, 0⟩, ⟨0x25B0077F, 0, 0, 0⟩] : List Packet).mapM toMidi1ByteStream = .ok bss ∧
    (Parser.new 5 true true).feedAll bss.flatten = .ok (p', rs.map .packet) ∧ rs.mapM processor = .ok (as.map coarse) :=
  C97_over_cable _ ⟨5, true, true, [], [], by decide, by simp [ValidGroups], rfl⟩ rfl
    [⟨0x45903C00, 0x81230000, 0, 0⟩, ⟨0x45603C00, 0x90000000, 0, 0⟩, ⟨0x45B00700, 0xFFFFFFFF, 0, 0⟩] (by decide)

end Midi
