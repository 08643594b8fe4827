import Verif.Props.ByteStreamNormal
import Verif.Props.Translation

/-!
# C57: translation in chains of conversions
-/

namespace Midi
open Spec Packet

/-- C57: what `as_midi1_channel_voice_message` returns can be translated to MIDI 2, into a message of the same kind, group and
channel, and translating this one to MIDI 1 returns the same packet again, bit by bit: nothing more is lost by a second
round trip. -/
theorem C57_stable (p r : Packet) (hr : asMidi1 p = some r) :
    ∃ q, asMidi2 r = .ok (some q) ∧ q.type = 4 ∧ q.group = p.group ∧ q.status = p.status ∧ asMidi1 q = some r := by
  obtain ⟨hw, hg, hs, w1, w2, w3, hn⟩ := C10_well_formed p r hr
  have hcc : r.status.toNat / 16 = 0xB → r.byte3.toNat ∉ sequenceControllers := by
    intro hB
    have ht := C10_translation p
    rw [hs] at hB
    rw [hB] at ht
    dsimp only [midi1DataOfMidi2] at ht
    by_cases hx : p.byte3.toNat % 128 ∈ sequenceControllers
    · rw [if_pos hx] at ht; simp [hr] at ht
    · rw [if_neg hx] at ht
      obtain ⟨r', hr', h0, _⟩ := ht
      obtain rfl : r' = r := by rw [hr] at hr'; exact (Option.some.inj hr').symm
      have hw' := p.w1.isLt
      rw [toNat_byte3, h0]
      have : (0x2 * 2 ^ 28 + p.group.toNat * 2 ^ 24 + 0xB * 2 ^ 20 + p.status.toNat % 16 * 2 ^ 16 + p.byte3.toNat % 128 * 2 ^ 8 +
          p.w1.toNat / 2 ^ 25) / 2 ^ 8 % 256 = p.byte3.toNat % 128 := by omega
      intro hmem
      apply hx
      convert hmem using 1
      omega
  have hv : r.status.toNat / 16 = 0x9 → r.byte4 ≠ 0 := by
    intro h9 h0
    have := (C11_meaning r).1.1 (hn h9)
    rcases this with h | h
    · rw [hw.1] at h; exact absurd h.1 (by decide)
    · exact h.2.2 h0
  obtain ⟨q, r', e1, e2, e3, e4, e5, e6⟩ := C09_round_trip r hw hcc hv
  obtain ⟨hw', _, _, w1', w2', w3', _⟩ := C10_well_formed q r' e5
  refine ⟨q, e1, e2, e3.trans hg, e4.trans hs, ?_⟩
  rw [e5]
  have hsz : r'.size = 1 := by rw [size, hw'.1]; rfl
  have h0 : r'.w0 = r.w0 := by
    unfold eqv at e6
    rw [hsz] at e6
    simpa [List.range_succ, word] using e6
  congr 1
  cases r; cases r'
  simp only at h0 w1 w2 w3 w1' w2' w3'
  subst h0 w1 w2 w3 w1' w2' w3'
  rfl

theorem wellFormed1_of_translation {p r : Packet} (hr : asMidi1 p = some r) : WellFormed1 [p.group] r ∧ IsShort r := by
  obtain ⟨⟨ht, hlo, hhi, h3, h4, hz⟩, hg, hs, w1, w2, w3, hn⟩ := C10_well_formed p r hr
  have t0 : (r.byteAt 0).toNat / 16 = 2 := by
    have := toNat_type r
    rw [ht] at this
    have e := toNat_byteOf r.w0 0
    have : (r.byteAt 0).toNat = _ := e
    rw [this]; simp at *; omega
  have hlt := (r.byteAt 1).isLt
  rw [status_eq] at hlo hhi hz
  rw [byte3_eq] at h3
  rw [byte4_eq] at h4 hz
  have hsh : IsShort r := Or.inr ⟨t0, by rw [BitVec.le_def]; simp; omega, by rw [BitVec.lt_def]; simp; omega⟩
  have zero : ∀ i, 4 ≤ i → i < 16 → r.byteAt i = 0 := by
    intro i h4 h16
    rw [byteAt_eq]
    have : r.word (i / 4) = 0 := by
      have : i / 4 = 1 ∨ i / 4 = 2 ∨ i / 4 = 3 := by omega
      rcases this with h | h | h <;> rw [h]
      · exact w1
      · exact w2
      · exact w3
    rw [this]
    have : i % 4 < 4 := by omega
    generalize i % 4 = k at this
    interval_cases k <;> rfl
  refine ⟨⟨⟨p.group, by simp, ?_⟩, Or.inl hsh, ?_, ?_⟩, hsh⟩
  · rw [groupOf, ← hg, group_eq, toNat_and0F]
  · intro i h2 hi
    by_cases e2 : i = 2
    · subst e2; exact h3
    by_cases e3 : i = 3
    · subst e3; exact h4
    rw [zero i (by omega) hi]; decide
  · intro i hi hu
    rw [if_neg (by omega)] at hu
    by_cases e4 : 4 ≤ i
    · exact zero i e4 hi
    · have hd : dataBytes (r.byteAt 1) < 2 ∧ 1 ≤ dataBytes (r.byteAt 1) → (r.byteAt 1).toNat / 16 = 0xC ∨ (r.byteAt 1).toNat / 16 = 0xD := by
        clear hu hz hlt zero
        have hh : 8 ≤ (r.byteAt 1).toNat / 16 ∧ (r.byteAt 1).toNat / 16 ≤ 14 := ⟨hlo, hhi⟩
        revert hh
        generalize r.byteAt 1 = s
        revert s; decide +kernel
      have hd1 : 1 ≤ dataBytes (r.byteAt 1) := by
        clear hd hu hz hlt zero
        have hh : 8 ≤ (r.byteAt 1).toNat / 16 ∧ (r.byteAt 1).toNat / 16 ≤ 14 := ⟨hlo, hhi⟩
        revert hh
        generalize r.byteAt 1 = s
        revert s; decide +kernel
      have : i = 3 := by omega
      subst this
      exact hz (hd ⟨by omega, hd1⟩)

/-- C57: MIDI 2 channel voice messages of one group sent over a MIDI 1 cable: those with a MIDI 1 counterpart are converted to
bytes, and a parser of the same group, whatever it has seen before, returns exactly the MIDI 1 messages, in order. -/
theorem C57_midi2_over_cable (p : Parser) (hp : Reached p) (hon : p.invokeCallbacks = true) (ps : List Packet)
    (hg : ∀ q ∈ ps, q.group = p.group) :
    ∃ bss p', (ps.filterMap asMidi1).mapM toMidi1ByteStream = .ok bss ∧
      p.feedAll bss.flatten = .ok (p', (ps.filterMap asMidi1).map .packet) := by
  refine C33_parse_back p hp hon _ fun r hr => ?_
  obtain ⟨q, hq, e⟩ := List.mem_filterMap.1 hr
  have := wellFormed1_of_translation e
  rw [hg q hq] at this
  exact this

/-- C57: a MIDI 2 note on with tiny velocity, a note with attribute (dropped) and a pitch bend in group 5. -/
example : ([⟨0x45903C00, 0x01000000, 0, 0⟩, ⟨0x45903C03, 0x01000000, 0, 0⟩, ⟨0x45E20000, 0x12345678, 0, 0⟩] : List Packet).filterMap
    asMidi1 = [⟨0x25903C01, 0, 0, 0⟩, ⟨0x25E20D09, 0, 0, 0⟩] := by decide

/-- C57: the other way round: a byte stream of channel voice messages, with status bytes, other than the sequence controllers
and note on with velocity zero, is parsed, each packet translated to MIDI 2 and from there to MIDI 1, and converted to bytes:
the bytes are the same. -/
theorem C57_cable_over_midi2 (p : Parser) (hp : Reached p) (hcb : p.hasSysexCallback = false) (hon : p.invokeCallbacks = true)
    (ms : List (List Byte)) (hms : ∀ m ∈ ms, Message1 m ∧ ∃ s d, m = s :: d ∧ 0x80 ≤ s ∧ s < 0xF0 ∧
      (s.toNat / 16 = 0xB → (d.getD 0 0).toNat ∉ sequenceControllers) ∧ (s.toNat / 16 = 0x9 → d.getD 1 0 ≠ 0)) :
    ∃ (p' : Parser) (ps qs : List Packet) (bss : List (List Byte)), p.feedAll ms.flatten = .ok (p', ps.map .packet) ∧ ps.mapM asMidi2 = .ok (qs.map some) ∧
      (∀ q ∈ qs, q.type = 4) ∧ qs.mapM asMidi1 = some ps ∧ ps.mapM toMidi1ByteStream = .ok bss ∧
      bss.flatten = ms.flatten := by
  obtain ⟨st, r, hx⟩ := reached_rel hp
  have hg := r.lt
  rw [hcb, hon] at r
  dsimp only at hg
  obtain ⟨p', e, hy⟩ := feedAll_rel ms.flatten r
  have key : ∃ ps qs : List Packet, (stepBytes ⟨p.group, false, true⟩ st ms.flatten).2 = ps.map .packet ∧
      ps.mapM asMidi2 = .ok (qs.map some) ∧ (∀ q ∈ qs, q.type = 4) ∧ qs.mapM asMidi1 = some ps ∧
      (ps.map streamBytes).flatten = ms.flatten := by
    clear e hx hy r
    induction ms generalizing st with
    | nil => exact ⟨[], [], rfl, rfl, by simp, rfl, rfl⟩
    | cons m ms ih =>
      obtain ⟨hm, s, d, rfl, h80, hF0, hcc, hv⟩ := hms m (by simp)
      obtain ⟨ps, qs, e1, e2, e3, e4, e5⟩ := ih (fun m hm => hms m (by simp [hm])) (stepBytes ⟨p.group, false, true⟩ st (s :: d)).1
      have hld : d.length = dataBytes s ∧ ∀ b ∈ d, b < 0x80 := by
        cases hm with
        | short _ _ _ hl hd => exact ⟨hl, hd⟩
        | sysex => exact absurd hF0 (by decide)
      have hs : shortStatus s := Or.inr ⟨h80, hF0⟩
      set r0 := shortMessage p.group s d with hr0
      have b0 : r0.byteAt 0 = 0x20 + p.group := by rw [hr0, byteAt_short_0, if_pos hF0]
      have b1 : r0.byteAt 1 = s := byteAt_short_1 ..
      have b2 : r0.byteAt 2 = d.getD 0 0 := shortMessage_data _ _ _ (by omega) (by omega)
      have b3 : r0.byteAt 3 = d.getD 1 0 := shortMessage_data _ _ _ (by omega) (by omega)
      have hs16 : 8 ≤ s.toNat / 16 ∧ s.toNat / 16 ≤ 14 := by
        rw [BitVec.le_def] at h80; rw [BitVec.lt_def] at hF0; simp at h80 hF0; omega
      have hw : WellFormedMidi1 r0 := by
        refine ⟨?_, ?_, ?_, ?_, ?_, ?_⟩
        · rw [type_eq, b0]; clear * - hg; revert hg; generalize p.group = g; revert g; decide +kernel
        · rw [status_eq, b1]; exact hs16.1
        · rw [status_eq, b1]; exact hs16.2
        · rw [byte3_eq, b2]; exact getD_lt80 hld.2 0
        · rw [byte4_eq, b3]; exact getD_lt80 hld.2 1
        · rw [status_eq, b1, byte4_eq, b3]
          intro h
          have : dataBytes s = 1 := by clear * - h; revert h; revert s; decide +kernel
          rw [List.getD_eq_getElem?_getD, List.getElem?_eq_none (by omega)]; rfl
      obtain ⟨q, r', f1, f2, f3, f4, f5, f6⟩ := C09_round_trip r0 hw (by rw [status_eq, b1, byte3_eq, b2]; exact hcc)
        (by rw [status_eq, b1, byte4_eq, b3]; exact hv)
      obtain ⟨hw', _, _, w1', w2', w3', _⟩ := C10_well_formed q r' f5
      have hrr : r' = r0 := by
        have hsz : r'.size = 1 := by rw [size, hw'.1]; rfl
        have h0 : r'.w0 = r0.w0 := by
          unfold eqv at f6
          rw [hsz] at f6
          simpa [List.range_succ, word] using f6
        have hz : ∃ w, r0 = ⟨w, 0, 0, 0⟩ := by
          have h2 : d.length ≤ 2 := hld.1 ▸ dataBytes_le s
          rw [hr0, ← short_pad _ _ h2]
          exact ⟨_, shortMessage_two ..⟩
        obtain ⟨w, hz⟩ := hz
        rw [hz] at h0 ⊢
        cases r'
        simp only at h0 w1' w2' w3'
        subst h0 w1' w2' w3'
        rfl
      rw [hrr] at f5
      refine ⟨r0 :: ps, q :: qs, ?_, ?_, ?_, ?_, ?_⟩
      · rw [List.flatten_cons, stepBytes_append]
        dsimp only
        rw [e1, stepBytes_short ⟨p.group, false, true⟩ rfl st hs hld.1 hld.2, hr0]; rfl
      · rw [List.mapM_cons, f1, ok_bind, e2]; rfl
      · intro x hx
        rcases List.mem_cons.1 hx with rfl | hx
        · exact f2
        · exact e3 x hx
      · rw [List.mapM_cons, f5, e4]; rfl
      · rw [List.map_cons, List.flatten_cons, e5, hr0, streamBytes_shortMessage hg hs hld.1]; rfl
  obtain ⟨ps, qs, e1, e2, e3, e4, e5⟩ := key
  exact ⟨p', ps, qs, _, by rw [e, e1], e2, e3, e4, mapM_stream ps, e5⟩

/-- C57: a note on, a control change and a program change satisfy the hypotheses. -/
example : ∀ m ∈ [[0x90, 0x3C, 0x40], [0xB2, 7, 0], [(0xC5 : Byte), 0x11]], Message1 m ∧ ∃ s d, m = s :: d ∧ 0x80 ≤ s ∧ s < 0xF0 ∧
    (s.toNat / 16 = 0xB → (d.getD 0 0).toNat ∉ sequenceControllers) ∧ (s.toNat / 16 = 0x9 → d.getD 1 0 ≠ 0) := by
  intro m hm
  simp only [List.mem_cons, List.not_mem_nil, or_false] at hm
  rcases hm with rfl | rfl | rfl
  · exact ⟨.short 0x90 [0x3C, 0x40] (by decide) (by decide) (by decide), _, _, rfl, by decide, by decide, by decide, by decide⟩
  · exact ⟨.short 0xB2 [7, 0] (by decide) (by decide) (by decide), _, _, rfl, by decide, by decide, by decide, by decide⟩
  · exact ⟨.short 0xC5 [0x11] (by decide) (by decide) (by decide), _, _, rfl, by decide, by decide, by decide, by decide⟩

end Midi
