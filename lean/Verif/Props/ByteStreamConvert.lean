import Verif.Props.ByteStream
import Verif.Props.SysexPackets

/-!
# C33, C34: conversion between packets and MIDI 1 byte streams
-/

namespace Midi
open Spec

/-! ## Helper lemmas -/

theorem copyBytes_eq (p : Packet) (n : Nat) : ∀ (out : List Byte) (fro : Nat), out.length + n ≤ 8 → fro + n ≤ 16 →
    copyBytes p out fro n = .ok (out ++ (List.range n).map fun i => p.byteAt (fro + i)) := by
  induction n with
  | zero => intro out fro _ _; simp [copyBytes]
  | succ n ih =>
    intro out fro h1 h2
    rw [copyBytes, Packet.getByte_lt _ (by omega), ok_bind, writeResult, if_pos (by omega), ok_bind,
      ih _ _ (by simp; omega) (by omega), List.range_succ_eq_map]
    simp only [List.map_cons, List.map_map, List.append_assoc, List.singleton_append, Nat.add_zero]
    congr 3
    apply List.map_congr_left
    intro i _
    simp only [Function.comp]
    congr 1; omega

theorem type_nat (p : Packet) (k : Byte) (hk : k < 16) : p.type = k ↔ (p.byteAt 0).toNat / 16 = k.toNat := by
  rw [Packet.type_eq]
  generalize p.byteAt 0 = b
  have h : (b >>> 4 : Byte).toNat = b.toNat / 16 := by
    rw [BitVec.toNat_ushiftRight, Nat.shiftRight_eq_div_pow]
  rw [← h]
  exact ⟨fun e => by rw [e], fun e => BitVec.eq_of_toNat_eq e⟩

theorem size_system {p : Packet} (h : (p.byteAt 0).toNat / 16 = 1) : midi1ByteStreamSize p =
    if p.byteAt 1 ∈ systemStatusBytes then 1 + dataBytes (p.byteAt 1) else 0 := by
  unfold midi1ByteStreamSize
  rw [if_pos ((type_nat p PacketType.system (by decide)).2 h), Packet.status_eq]
  generalize p.byteAt 1 = s
  revert s; decide +kernel

theorem size_cv {p : Packet} (h : (p.byteAt 0).toNat / 16 = 2) : midi1ByteStreamSize p =
    if 0x80 ≤ p.byteAt 1 ∧ p.byteAt 1 < 0xF0 then 1 + dataBytes (p.byteAt 1) else 0 := by
  unfold midi1ByteStreamSize
  rw [if_neg (fun e => by rw [type_nat p PacketType.system (by decide), h] at e; exact absurd e (by decide)),
    if_pos ((type_nat p PacketType.midi1ChannelVoice (by decide)).2 h), Packet.status_eq]
  generalize p.byteAt 1 = s
  revert s; decide +kernel

theorem size_data {p : Packet} (h : (p.byteAt 0).toNat / 16 = 3) : midi1ByteStreamSize p =
    if (p.byteAt 1).toNat / 16 ≤ 3 ∧ (p.byteAt 1).toNat % 16 ≤ 6 then (p.byteAt 1).toNat % 16 else 0 := by
  unfold midi1ByteStreamSize
  rw [if_neg (fun e => by rw [type_nat p PacketType.system (by decide), h] at e; exact absurd e (by decide)),
    if_neg (fun e => by rw [type_nat p PacketType.midi1ChannelVoice (by decide), h] at e; exact absurd e (by decide)),
    if_pos ((type_nat p PacketType.data (by decide)).2 h), Packet.status_eq]
  generalize p.byteAt 1 = s
  revert s; decide +kernel

theorem size_other {p : Packet} (h1 : (p.byteAt 0).toNat / 16 ≠ 1) (h2 : (p.byteAt 0).toNat / 16 ≠ 2)
    (h3 : (p.byteAt 0).toNat / 16 ≠ 3) : midi1ByteStreamSize p = 0 := by
  unfold midi1ByteStreamSize
  rw [if_neg (fun e => h1 ((type_nat p PacketType.system (by decide)).1 e)),
    if_neg (fun e => h2 ((type_nat p PacketType.midi1ChannelVoice (by decide)).1 e)),
    if_neg (fun e => h3 ((type_nat p PacketType.data (by decide)).1 e))]

theorem short_bytes (p : Packet) : ((List.range (1 + dataBytes (p.byteAt 1))).map fun i => p.byteAt (1 + i)) =
    p.byteAt 1 :: [p.byteAt 2, p.byteAt 3].take (dataBytes (p.byteAt 1)) := by
  have h := dataBytes_le (p.byteAt 1)
  generalize dataBytes (p.byteAt 1) = n at h ⊢
  match n, h with
  | 0, _ => rfl
  | 1, _ => rfl
  | 2, _ => rfl

theorem format_cases (b : Byte) (h : b.toNat / 16 ≤ 3) :
    (b &&& 0xF0 = Format.complete.status ↔ b.toNat / 16 = 0) ∧ (b &&& 0xF0 = Format.start.status ↔ b.toNat / 16 = 1) ∧
    (b &&& 0xF0 = Format.fin.status ↔ b.toNat / 16 = 3) := by
  revert h; revert b; decide +kernel

/-! ## C33 -/

/-- C33: `to_midi1_byte_stream` never writes outside its buffer of 8 bytes, for whatever packet, and writes the MIDI 1 byte
stream of the packet as specified. -/
theorem C33_to_byte_stream (p : Packet) : toMidi1ByteStream p = .ok (streamBytes p) ∧ (streamBytes p).length ≤ 8 := by
  have hlen : (streamBytes p).length ≤ 8 := by
    unfold streamBytes
    split
    · simp only [List.length_cons, List.length_take, List.length_nil]; omega
    · split
      · next h =>
        have := h.2.2
        have e : (payload7 p).length = (p.byteAt 1).toNat % 16 := by simp [payload7]
        simp only [List.length_append, e]
        split <;> split <;> simp <;> omega
      · simp
  refine ⟨?_, hlen⟩
  unfold toMidi1ByteStream streamBytes
  dsimp only
  by_cases h1 : (p.byteAt 0).toNat / 16 = 1
  · rw [if_pos (Or.inl ((type_nat p PacketType.system (by decide)).2 h1)), size_system h1]
    have hd := dataBytes_le (p.byteAt 1)
    by_cases hs : p.byteAt 1 ∈ systemStatusBytes
    · rw [if_pos hs, copyBytes_eq _ _ _ _ (by simp; omega) (by omega), if_pos (show IsShort p from Or.inl ⟨h1, hs⟩), short_bytes]; rfl
    · rw [if_neg hs, if_neg (show ¬ IsShort p by rintro (⟨_, h⟩ | ⟨h, _⟩); exact hs h; omega),
        if_neg (show ¬ IsSysex7 p by rintro ⟨h, _⟩; omega)]; rfl
  by_cases h2 : (p.byteAt 0).toNat / 16 = 2
  · rw [if_pos (Or.inr ((type_nat p PacketType.midi1ChannelVoice (by decide)).2 h2)), size_cv h2]
    have hd := dataBytes_le (p.byteAt 1)
    by_cases hs : 0x80 ≤ p.byteAt 1 ∧ p.byteAt 1 < 0xF0
    · rw [if_pos hs, copyBytes_eq _ _ _ _ (by simp; omega) (by omega), if_pos (show IsShort p from Or.inr ⟨h2, hs⟩), short_bytes]; rfl
    · rw [if_neg hs, if_neg (show ¬ IsShort p by rintro (⟨h, _⟩ | ⟨_, h⟩); exact h1 h; exact hs h),
        if_neg (show ¬ IsSysex7 p by rintro ⟨h, _⟩; omega)]; rfl
  rw [if_neg (by
    rintro (e | e)
    · exact h1 ((type_nat p PacketType.system (by decide)).1 e)
    · exact h2 ((type_nat p PacketType.midi1ChannelVoice (by decide)).1 e))]
  rw [if_neg (show ¬ IsShort p by rintro (⟨h, _⟩ | ⟨h, _⟩); exact h1 h; exact h2 h)]
  by_cases h3 : (p.byteAt 0).toNat / 16 = 3
  · rw [if_pos ((type_nat p PacketType.data (by decide)).2 h3)]
    by_cases h7 : IsSysex7 p
    · rw [if_pos h7, if_pos ((C15_is_sysex7_packet_iff p).2 h7), size_data h3, if_pos h7.2]
      obtain ⟨f0, f1, f3⟩ := format_cases _ h7.2.1
      have h6 := h7.2.2
      rw [Packet.status_eq]
      have e : (payload7 p).length = (p.byteAt 1).toNat % 16 := by simp [payload7]
      have hF : ∀ out : List Byte, out.length ≤ 1 → (copyBytes p out 2 ((p.byteAt 1).toNat % 16) >>= fun out =>
          if p.byteAt 1 &&& 0xF0 = Format.complete.status ∨ p.byteAt 1 &&& 0xF0 = Format.fin.status then
            writeResult out 0xF7 else pure out) =
          .ok (out ++ payload7 p ++ (if formatCode p = 0 ∨ formatCode p = 3 then [0xF7] else [])) := by
        intro out ho
        rw [copyBytes_eq _ _ _ _ (by omega) (by omega), ok_bind]
        show (if _ then writeResult (out ++ payload7 p) 0xF7 else .ok (out ++ payload7 p)) = _
        by_cases hf : formatCode p = 0 ∨ formatCode p = 3
        · rw [if_pos hf, if_pos (by rw [f0, f3]; exact hf), writeResult, if_pos]
          rw [List.length_append, e]; omega
        · rw [if_neg hf, if_neg (by rw [f0, f3]; exact hf), List.append_nil]
      by_cases hf : formatCode p ≤ 1
      · rw [if_pos hf, if_pos (by rw [f0, f1]; unfold formatCode at hf; omega)]
        exact hF [0xF0] (by simp)
      · rw [if_neg hf, if_neg (by rw [f0, f1]; unfold formatCode at hf; omega)]
        exact hF [] (by simp)
    · rw [if_neg h7, if_neg (fun e => h7 ((C15_is_sysex7_packet_iff p).1 e))]; rfl
  · rw [if_neg (fun e => h3 ((type_nat p PacketType.data (by decide)).1 e)), if_neg (fun h => h3 h.1)]; rfl

/-- C33: `midi1_byte_stream_size` is the number of bytes written for system and channel voice messages; for sysex7 packets
it is the number of payload bytes, without the F0 and F7 that are written too; it is zero for all other packets. -/
theorem C33_stream_size (p : Packet) : midi1ByteStreamSize p =
    if IsShort p then (streamBytes p).length else if IsSysex7 p then (payload7 p).length else 0 := by
  have e : (payload7 p).length = (p.byteAt 1).toNat % 16 := by simp [payload7]
  have hd := dataBytes_le (p.byteAt 1)
  by_cases hs : IsShort p
  · rw [if_pos hs, streamBytes, if_pos hs]
    have : (p.byteAt 1 :: [p.byteAt 2, p.byteAt 3].take (dataBytes (p.byteAt 1))).length = 1 + dataBytes (p.byteAt 1) := by
      simp; omega
    rw [this]
    rcases hs with ⟨h1, h2⟩ | ⟨h1, h2⟩
    · rw [size_system h1, if_pos h2]
    · rw [size_cv h1, if_pos h2]
  · rw [if_neg hs]
    by_cases h7 : IsSysex7 p
    · rw [if_pos h7, size_data h7.1, if_pos h7.2, e]
    · rw [if_neg h7]
      by_cases h1 : (p.byteAt 0).toNat / 16 = 1
      · rw [size_system h1, if_neg (fun h => hs (Or.inl ⟨h1, h⟩))]
      by_cases h2 : (p.byteAt 0).toNat / 16 = 2
      · rw [size_cv h2, if_neg (fun h => hs (Or.inr ⟨h2, h⟩))]
      by_cases h3 : (p.byteAt 0).toNat / 16 = 3
      · rw [size_data h3, if_neg (fun h => h7 ⟨h3, h⟩)]
      exact size_other h1 h2 h3

/-- C33: for a complete sysex packet the number of bytes written differs from `midi1_byte_stream_size`. -/
theorem C33_size_differs : midi1ByteStreamSize ⟨0x30037E01, 0x02000000, 0, 0⟩ = 3 ∧
    toMidi1ByteStream ⟨0x30037E01, 0x02000000, 0, 0⟩ = .ok [0xF0, 0x7E, 0x01, 0x02, 0xF7] := by decide

/-- A well formed short packet is the short message of its bytes. -/
theorem wellFormed_eq {g : Byte} {q : Packet} (hg : g < 16) (h : WellFormed1 [g] q) (hs : IsShort q) :
    ∃ s d, shortStatus s ∧ d.length = dataBytes s ∧ (∀ b ∈ d, b < 0x80) ∧ q = shortMessage g s d ∧ streamBytes q = s :: d := by
  have hd2 := dataBytes_le (q.byteAt 1)
  have hlt2 := h.data 2 (by omega) (by omega)
  have hlt3 := h.data 3 (by omega) (by omega)
  have hl : ([q.byteAt 2, q.byteAt 3].take (dataBytes (q.byteAt 1))).length = dataBytes (q.byteAt 1) := by simp; omega
  have h7 : (q.byteAt 0).toNat / 16 ≠ 3 := by rcases hs with ⟨h, _⟩ | ⟨h, _⟩ <;> omega
  refine ⟨q.byteAt 1, [q.byteAt 2, q.byteAt 3].take (dataBytes (q.byteAt 1)), ?_, hl, ?_, ?_, ?_⟩
  · rcases hs with ⟨_, h⟩ | ⟨_, h⟩
    · exact Or.inl h
    · exact Or.inr h
  · intro b hb
    have := List.mem_of_mem_take hb
    simp only [List.mem_cons, List.not_mem_nil, or_false] at this
    rcases this with rfl | rfl <;> assumption
  · apply Packet.ext_bytes
    intro i hi
    by_cases h0 : i = 0
    · subst h0
      rw [byteAt_short_0]
      obtain ⟨g', hg', hgr⟩ := h.group
      simp only [List.mem_singleton] at hg'; subst hg'
      apply BitVec.eq_of_toNat_eq
      have hg16 : g'.toNat < 16 := hg
      unfold groupOf at hgr
      rcases hs with ⟨ht, hx⟩ | ⟨ht, _, hx⟩
      · rw [if_neg (by clear hd2 hl; revert hx; generalize q.byteAt 1 = s; revert s; decide +kernel), BitVec.toNat_add]
        show _ = (16 + g'.toNat) % 256
        omega
      · rw [if_pos hx, BitVec.toNat_add]
        show _ = (32 + g'.toNat) % 256
        omega
    by_cases h1 : i = 1
    · subst h1; rw [byteAt_short_1]
    rw [shortMessage_data _ _ _ (by omega) hi, List.getD_eq_getElem?_getD]
    have hu := h.unused i hi
    rw [if_neg h7] at hu
    by_cases hk : i - 2 < dataBytes (q.byteAt 1)
    · rw [List.getElem?_take_of_lt hk]
      have : i = 2 ∨ i = 3 := by omega
      rcases this with rfl | rfl <;> rfl
    · rw [hu (by omega), List.getElem?_eq_none (by omega)]; rfl
  · rw [streamBytes, if_pos hs]

/-- A short message is recognised in every state. -/
theorem stepBytes_short (c : Settings) (hon : c.enabled = true) (st : StreamState) {s : Byte} {d : List Byte}
    (hs : shortStatus s) (hl : d.length = dataBytes s) (hd : ∀ b ∈ d, b < 0x80) :
    (stepBytes c st (s :: d)).2 = [.packet (shortMessage c.group s d)] := by
  by_cases h8 : s ≥ 0xF8
  · have h0 : dataBytes s = 0 ∧ ¬ (s = 0xF9 ∨ s = 0xFD) := by
      clear hl; revert hs h8; revert s; decide +kernel
    have : d = [] := List.length_eq_zero_iff.1 (hl.trans h0.1)
    subst this
    rw [stepBytes_cons, step_rt _ _ h8, if_neg h0.2, if_pos hon]; rfl
  by_cases h6 : s = 0xF6
  · subst h6
    have : d = [] := List.length_eq_zero_iff.1 hl
    subst this
    rw [stepBytes_cons, step_tune, if_pos hon]; rfl
  · have h0 : dataBytes s ≠ 0 := by clear hl; revert hs h8 h6; revert s; decide +kernel
    rw [stepBytes_message c st s d h8 h0 hd hl, if_pos hon]

/-- C33: converting any sequence of well formed system and channel voice packets to a byte stream and feeding the bytes to a
parser with the same group, in any state, gives back the packets, in order and nothing else. -/
theorem C33_parse_back (p : Parser) (hp : Reached p) (hon : p.invokeCallbacks = true) (ps : List Packet)
    (hps : ∀ q ∈ ps, WellFormed1 [p.group] q ∧ IsShort q) :
    ∃ bss p', ps.mapM toMidi1ByteStream = .ok bss ∧ p.feedAll bss.flatten = .ok (p', ps.map .packet) := by
  obtain ⟨st, r, hg⟩ := reached_rel hp
  have hm : ∀ ps : List Packet, ps.mapM toMidi1ByteStream = .ok (ps.map streamBytes) := by
    intro ps
    induction ps with
    | nil => rfl
    | cons q ps ih => rw [List.mapM_cons, (C33_to_byte_stream q).1, ok_bind, ih]; rfl
  have key : ∀ ps : List Packet, (∀ q ∈ ps, WellFormed1 [p.group] q ∧ IsShort q) → ∀ st,
      (stepBytes ⟨p.group, p.hasSysexCallback, p.invokeCallbacks⟩ st (ps.map streamBytes).flatten).2 = ps.map .packet := by
    intro ps
    induction ps with
    | nil => intro _ st; rfl
    | cons q ps ih =>
      intro h st
      obtain ⟨hw, hs⟩ := h q (by simp)
      obtain ⟨s, d, h1, h2, h3, h4, h5⟩ := wellFormed_eq r.lt hw hs
      rw [List.map_cons, List.flatten_cons, stepBytes_append, h5, stepBytes_short _ hon _ h1 h2 h3,
        ih (fun q hq => h q (by simp [hq]))]
      rw [List.map_cons, h4]; rfl
  obtain ⟨p', e, _⟩ := feedAll_rel (ps.map streamBytes).flatten r
  exact ⟨_, p', hm ps, by rw [e, key ps hps]⟩

/-- C33: a song position, a clock, a note on and a program change message in group 3. -/
example : ∃ p', [⟨0x13F21122, 0, 0, 0⟩, ⟨0x13F80000, 0, 0, 0⟩, ⟨0x23954C7F, 0, 0, 0⟩, ⟨0x23C14400, 0, 0, 0⟩].mapM
      toMidi1ByteStream = .ok [[0xF2, 0x11, 0x22], [0xF8], [0x95, 0x4C, 0x7F], [0xC1, 0x44]] ∧
    (Parser.new 3 false true).feedAll [0xF2, 0x11, 0x22, 0xF8, 0x95, 0x4C, 0x7F, 0xC1, 0x44] = .ok (p',
      [.packet ⟨0x13F21122, 0, 0, 0⟩, .packet ⟨0x13F80000, 0, 0, 0⟩, .packet ⟨0x23954C7F, 0, 0, 0⟩,
        .packet ⟨0x23C14400, 0, 0, 0⟩]) := ⟨_, rfl, rfl⟩

/-- C33: the packets just mentioned satisfy the hypotheses. -/
example : ∀ q ∈ [(⟨0x13F21122, 0, 0, 0⟩ : Packet), ⟨0x13F80000, 0, 0, 0⟩, ⟨0x23954C7F, 0, 0, 0⟩, ⟨0x23C14400, 0, 0, 0⟩],
    WellFormed1 [3] q ∧ IsShort q := by
  intro q hq
  simp only [List.mem_cons, List.not_mem_nil, or_false] at hq
  rcases hq with rfl | rfl | rfl | rfl <;>
  exact ⟨⟨by decide, by decide, by decide, by decide⟩, by decide⟩

/-! ## C34 -/

theorem short_pad (g s : Byte) : ∀ {d : List Byte}, d.length ≤ 2 →
    shortMessage g s [d.getD 0 0, d.getD 1 0] = shortMessage g s d
  | [], _ => by rw [shortMessage_two, shortMessage_nil]; simp
  | [a], _ => by rw [shortMessage_two, shortMessage_one]; simp
  | [a, b], _ => by simp
  | a :: b :: c :: d, h => by simp only [List.length_cons] at h; omega

theorem from_eq_short {s : Byte} (hs : shortStatus s) (d1 d2 : Byte) : fromMidi1ByteStream s d1 d2 = shortMessage 0 s [d1, d2] := by
  have hb : (s < 0xF0 → ¬ (s &&& 0xF0 = 0xF0) ∧ ¬ s < 0x80) ∧ (¬ s < 0xF0 → s &&& 0xF0 = 0xF0 ∧
      ¬ (s = 0xF0 ∨ s = 0xF7 ∨ s = 0xF4 ∨ s = 0xF5 ∨ s = 0xF9 ∨ s = 0xFD)) := by
    revert hs; revert s; decide +kernel
  have hw : ∀ t : Byte, t = 1 ∨ t = 2 → (⟨(t.setWidth 32 <<< 28) ||| (s.setWidth 32 <<< 16) |||
      (d1.setWidth 32 <<< 8) ||| d2.setWidth 32, 0, 0, 0⟩ : Packet) = ⟨wordOf (t <<< 4) s d1 d2, 0, 0, 0⟩ := by
    intro t ht
    have : (t.setWidth 32 <<< 28 : Word) = (t <<< 4).setWidth 32 <<< 24 := by rcases ht with rfl | rfl <;> decide
    rw [this, wordOf]
  rw [shortMessage_two, shortPk, shortHead]
  unfold fromMidi1ByteStream
  dsimp only
  by_cases h : s < 0xF0
  · rw [if_neg (hb.1 h).1, if_neg (hb.1 h).2, if_pos h, hw PacketType.midi1ChannelVoice (Or.inr rfl)]; rfl
  · rw [if_pos (hb.2 h).1, if_neg (hb.2 h).2, if_neg h, hw PacketType.system (Or.inl rfl)]; rfl

/-- C34: for the status byte of a system or channel voice message and any two data bytes, converting to a packet and back
returns the status byte and the data bytes this status has. -/
theorem C34_from_to (s d1 d2 : Byte) (hs : s ∈ systemStatusBytes ∨ 0x80 ≤ s ∧ s < 0xF0) :
    toMidi1ByteStream (fromMidi1ByteStream s d1 d2) = .ok (s :: [d1, d2].take (dataBytes s)) := by
  rw [(C33_to_byte_stream _).1, from_eq_short hs]
  have hS : IsShort (shortMessage 0 s [d1, d2]) := by
    unfold IsShort
    rw [byteAt_short_0, byteAt_short_1, shortHead_type (by decide)]
    rcases hs with h | h
    · left; exact ⟨if_neg (by revert h; revert s; decide +kernel), h⟩
    · right; exact ⟨if_pos h.2, h⟩
  rw [streamBytes, if_pos hS, byteAt_short_1, shortMessage_data _ _ _ (by omega) (by omega),
    shortMessage_data _ _ _ (by omega) (by omega)]
  rfl

example := C34_from_to 0x93 60 100 (by decide)

/-- C34: for any other first byte, among them F0, F7, data bytes and undefined status bytes, the result is the empty packet,
which has no bytes. -/
theorem C34_from_other (s d1 d2 : Byte) (hs : ¬ (s ∈ systemStatusBytes ∨ 0x80 ≤ s ∧ s < 0xF0)) :
    fromMidi1ByteStream s d1 d2 = {} ∧ toMidi1ByteStream {} = .ok [] := by
  refine ⟨?_, rfl⟩
  unfold fromMidi1ByteStream
  dsimp only
  by_cases h : s &&& 0xF0 = 0xF0
  · have : s = 0xF0 ∨ s = 0xF7 ∨ s = 0xF4 ∨ s = 0xF5 ∨ s = 0xF9 ∨ s = 0xFD := by revert hs h; revert s; decide +kernel
    rw [if_pos h, if_pos this]
  · have : s < 0x80 := by revert hs h; revert s; decide +kernel
    rw [if_neg h, if_pos this]

example := C34_from_other 0xF4 60 100 (by decide)

/-- C34: a well formed system or channel voice packet in group 0 converted to bytes and back is unchanged. -/
theorem C34_to_from (q : Packet) (hw : WellFormed1 [0] q) (hs : IsShort q) :
    ∃ bs, toMidi1ByteStream q = .ok bs ∧ fromMidi1ByteStream (bs.getD 0 0) (bs.getD 1 0) (bs.getD 2 0) = q := by
  obtain ⟨s, d, h1, h2, h3, h4, h5⟩ := wellFormed_eq (by decide) hw hs
  refine ⟨_, (C33_to_byte_stream q).1, ?_⟩
  rw [h5]
  show fromMidi1ByteStream s (d.getD 0 0) (d.getD 1 0) = q
  rw [from_eq_short h1, h4]
  have := dataBytes_le s
  exact short_pad _ _ (by omega)

/-- C34: `from_midi1_byte_stream` agrees with what a parser of group 0 emits for the same bytes, in any state. -/
theorem C34_agrees_with_parser (p : Parser) (hp : Reached p) (hon : p.invokeCallbacks = true) (hg : p.group = 0)
    (s : Byte) (d : List Byte) (hs : s ∈ systemStatusBytes ∨ 0x80 ≤ s ∧ s < 0xF0) (hl : d.length = dataBytes s)
    (hd : ∀ b ∈ d, b < 0x80) :
    ∃ p', p.feedAll (s :: d) = .ok (p', [.packet (fromMidi1ByteStream s (d.getD 0 0) (d.getD 1 0))]) := by
  obtain ⟨st, r, _⟩ := reached_rel hp
  obtain ⟨p', e, _⟩ := feedAll_rel (s :: d) r
  refine ⟨p', ?_⟩
  rw [e, stepBytes_short _ hon _ hs hl hd, from_eq_short hs]
  show Except.ok (p', [Event.packet (shortMessage p.group s d)]) = _
  have := dataBytes_le s
  rw [hg, short_pad _ _ (by omega)]

/-- C34: a pitch bend and a program change message. -/
example : fromMidi1ByteStream 0xE2 0x12 0x34 = ⟨0x20E21234, 0, 0, 0⟩ ∧
    toMidi1ByteStream ⟨0x20E21234, 0, 0, 0⟩ = .ok [0xE2, 0x12, 0x34] ∧
    fromMidi1ByteStream 0xC2 0x12 0 = ⟨0x20C21200, 0, 0, 0⟩ ∧ toMidi1ByteStream ⟨0x20C21200, 0, 0, 0⟩ = .ok [0xC2, 0x12] := by
  decide

end Midi
