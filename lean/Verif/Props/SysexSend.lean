import Verif.Lemmas.Chunks
import Verif.Props.SysexPackets

/-!
# Properties C17 and C19: sending sysex messages as packets
-/

namespace Midi
open Spec

/-! ## Manufacturer ids -/

theorem word_and_eq (w : Word) : (w &&& 0x00FFFF = 0 ↔ w.toNat % 65536 = 0) ∧
    (w &&& 0xFF0000 = 0 ↔ w.toNat / 65536 % 256 = 0) := by
  have h1 : (w &&& 0x00FFFF).toNat = w.toNat % 65536 := by
    rw [BitVec.toNat_and]; exact Nat.and_two_pow_sub_one_eq_mod _ 16
  have h2 : (w &&& 0xFF0000).toNat = w.toNat / 65536 % 256 * 65536 := by
    have : w &&& (0xFF0000 : Word) = ((w >>> 16) &&& 0xFF) <<< 16 := by bits
    rw [this, BitVec.toNat_shiftLeft, BitVec.toNat_and, BitVec.toNat_ushiftRight, Nat.shiftLeft_eq]
    rw [show (0xFF : Word).toNat = 2 ^ 8 - 1 from rfl, Nat.and_two_pow_sub_one_eq_mod, Nat.shiftRight_eq_div_pow]
    have := w.isLt
    omega
  constructor
  · rw [← BitVec.toNat_inj, h1]; rfl
  · rw [← BitVec.toNat_inj, h2]; simp

/-- Seven bits of a word, as extracted when sending a manufacturer id. -/
theorem id7_eq (w : Word) (k : Nat) : ((w >>> k) &&& 0x7F).setWidth 8 = BitVec.ofNat 8 (w.toNat / 2 ^ k % 128) := by
  apply BitVec.eq_of_toNat_eq
  rw [BitVec.toNat_setWidth, BitVec.toNat_and, BitVec.toNat_ushiftRight, BitVec.toNat_ofNat,
    show (0x7F : Word).toNat = 2 ^ 7 - 1 from rfl, Nat.and_two_pow_sub_one_eq_mod, Nat.shiftRight_eq_div_pow]

theorem id7_eq0 (w : Word) : (w &&& 0x7F).setWidth 8 = BitVec.ofNat 8 (w.toNat % 128) := by
  have := id7_eq w 0
  simpa using this

theorem totalDataSize_genuine (s : Sysex) (h : GenuineId s.manufacturerID) :
    s.totalDataSize = (idBytes7 s.manufacturerID).length + s.data.length := by
  have hne : s.manufacturerID ≠ 0 := by
    intro h0
    rw [h0] at h
    exact absurd h (by decide)
  unfold Sysex.totalDataSize
  rw [if_pos hne]
  unfold idBytes7
  have e := (word_and_eq s.manufacturerID).2
  rcases h with h | h
  · unfold OneByteId at h
    rw [if_pos (by rw [ne_eq, e]; omega), if_neg (by omega)]
    simp; omega
  · unfold ThreeByteId at h
    rw [if_neg (by rw [not_not, e]; omega), if_pos (by omega)]
    simp; omega

/-- The manufacturer id bytes written by `send_sysex7` are those of the specification. -/
theorem sent_id7 (id : Word) (h : GenuineId id) :
    (if id &&& 0x00FFFF ≠ 0 then
      [((id >>> 16) &&& 0x7F).setWidth 8, ((id >>> 8) &&& 0x7F).setWidth 8, (id &&& 0x7F).setWidth 8]
    else [((id >>> 16) &&& 0x7F).setWidth 8] : List Byte) = idBytes7 id := by
  rw [id7_eq, id7_eq, id7_eq0]
  have e := (word_and_eq id).1
  unfold idBytes7
  rcases h with h | h
  · unfold OneByteId at h
    rw [if_neg (by rw [not_not, e]; omega), if_neg (by omega)]
    rw [show id.toNat / 2 ^ 16 % 128 = id.toNat / 65536 by omega]
  · unfold ThreeByteId at h
    rw [if_pos (by rw [ne_eq, e]; omega), if_pos (by omega)]
    rw [show id.toNat / 2 ^ 16 % 128 = 0 by omega, show id.toNat / 2 ^ 8 % 128 = id.toNat / 256 by omega,
      show id.toNat % 128 = id.toNat % 256 by omega]
    rfl

theorem idBytes7_length (id : Word) : 1 ≤ (idBytes7 id).length ∧ (idBytes7 id).length ≤ 3 := by
  unfold idBytes7; split <;> simp

/-- `send_sysex7` in terms of chunks, for every manufacturer id. -/
theorem sendSysex7_any (s : Sysex) {g : Byte} (hg : g < 16) :
    sendSysex7 s g = .ok ((chunks 6 (· &&& 0x7F) (if s.totalDataSize ≤ 6 then .complete else .start)
      (if s.manufacturerID &&& 0x00FFFF ≠ 0 then
        [((s.manufacturerID >>> 16) &&& 0x7F).setWidth 8, ((s.manufacturerID >>> 8) &&& 0x7F).setWidth 8,
          (s.manufacturerID &&& 0x7F).setWidth 8]
      else [((s.manufacturerID >>> 16) &&& 0x7F).setWidth 8]) s.data).map fun c => mk7 c.1 g c.2) := by
  have m7 : ∀ x : Word, ((x &&& 0x7F).setWidth 8 : Byte) &&& 0x7F = (x &&& 0x7F).setWidth 8 := by
    intro x; bits
  unfold sendSysex7
  rw [makeSysex7_eq _ hg]
  simp only [ok_bind]
  rw [addPayload_mk7 _ (by simp)]
  simp only [ok_bind]
  have step : ∀ pl : List Byte, 0 < pl.length → pl.length < 6 →
      (do let (out, p) ← sendSysex7Loop g (mk7 (if s.totalDataSize ≤ 6 then .complete else .start) g pl)
            s.data.length s.data
          return if sysex7PayloadSize p ≠ 0 then out ++ [p] else out) =
      .ok ((chunks 6 (· &&& 0x7F) (if s.totalDataSize ≤ 6 then .complete else .start) pl s.data).map
        fun c => mk7 c.1 g c.2) := by
    intro pl h0 h6
    rw [sendSysex7Loop_eq hg _ _ _ _ h6]
    simp only [ok_bind, pure_eq_ok]
    unfold chunks
    rw [payloadSize_mk7 _ _ (Nat.le_of_lt (chunkLoop_last_lt (by omega) _ _ _ _ _ h6))]
    generalize chunkLoop 6 _ _ pl _ _ = r
    by_cases h : r.2.2.length ≠ 0
    · rw [if_pos h, if_pos h]; simp
    · rw [if_neg h, if_neg h]
  by_cases h : s.manufacturerID &&& 0x00FFFF ≠ 0
  · rw [if_pos h, if_pos h]
    simp only [List.nil_append]
    rw [addPayload_mk7 _ (by simp)]
    simp only [ok_bind]
    rw [addPayload_mk7 _ (by simp)]
    simp only [ok_bind, m7]
    exact step _ (by simp) (by simp)
  · rw [if_neg h, if_neg h]
    simp only [List.nil_append, ok_bind, m7]
    exact step _ (by simp) (by simp)

/-- `send_sysex7` in terms of chunks. -/
theorem sendSysex7_eq (s : Sysex) {g : Byte} (hg : g < 16) (hid : GenuineId s.manufacturerID) :
    sendSysex7 s g = .ok ((chunks 6 (· &&& 0x7F) (if s.totalDataSize ≤ 6 then .complete else .start)
      (idBytes7 s.manufacturerID) s.data).map fun c => mk7 c.1 g c.2) := by
  rw [← sent_id7 _ hid]
  exact sendSysex7_any s hg

/-- C17: for every message with a genuine manufacturer id and every group, `send_sysex7` fails no assertion and emits
sysex7 packets in the requested group, which are correctly framed; all but the last are full, none is empty, and their
concatenated payload is the manufacturer id followed by the data reduced to 7 bit. -/
theorem C17_send_sysex7 (s : Sysex) (g : Byte) (hg : g < 16) (hid : GenuineId s.manufacturerID) :
    ∃ ps, sendSysex7 s g = .ok ps ∧
      (∀ p ∈ ps, IsSysex7 p ∧ groupOf p = g.toNat ∧ payload7 p ≠ []) ∧
      Framed (ps.map formatCode) ∧
      (∀ p ∈ ps.dropLast, (payload7 p).length = 6) ∧
      ps.flatMap payload7 = idBytes7 s.manufacturerID ++ s.data.map (· &&& 0x7F) := by
  refine ⟨_, sendSysex7_eq s hg hid, ?_⟩
  have hi := idBytes7_length s.manufacturerID
  have ht := totalDataSize_genuine s hid
  -- facts about the chunks
  have key : ∃ cs, chunks 6 (· &&& 0x7F) (if s.totalDataSize ≤ 6 then .complete else .start)
        (idBytes7 s.manufacturerID) s.data = cs ∧ Framed (cs.map (·.1.code.toNat)) ∧
      cs.flatMap (·.2) = idBytes7 s.manufacturerID ++ s.data.map (· &&& 0x7F) ∧
      (∀ c ∈ cs.dropLast, c.2.length = 6) ∧ (∀ c ∈ cs, 0 < c.2.length ∧ c.2.length ≤ 6) := by
    refine ⟨_, rfl, ?_⟩
    by_cases h : s.totalDataSize ≤ 6
    · rw [if_pos h, chunks_one _ _ _ _ (by omega) (by omega) (by omega)]
      refine ⟨Or.inl ?_, ?_, ?_, ?_⟩
      · rfl
      · simp
      · simp
      · simp; omega
    · rw [if_neg h]
      obtain ⟨⟨k, hk⟩, hf, hd, ha⟩ :=
        chunks_framed (N := 6) (· &&& 0x7F) _ .start (idBytes7 s.manufacturerID) s.data rfl (by omega) (by omega)
      exact ⟨Or.inr ⟨k, hk⟩, hf, hd, ha⟩
  obtain ⟨cs, hcs, hfr, hcat, hdl, hall⟩ := key
  rw [hcs]
  refine ⟨?_, ?_, ?_, ?_⟩
  · intro p hp
    obtain ⟨c, hc, rfl⟩ := List.mem_map.1 hp
    have := hall c hc
    refine ⟨isSysex7_mk7 _ hg this.2, groupOf_mk7 _ hg, ?_⟩
    rw [payload7_mk7 _ _ this.2]
    intro h; rw [h] at this; simp at this
  · rw [List.map_map]
    convert hfr using 1
    apply List.map_congr_left
    intro c hc
    exact formatCode_mk7 _ _ (hall c hc).2
  · intro p hp
    rw [← List.map_dropLast] at hp
    obtain ⟨c, hc, rfl⟩ := List.mem_map.1 hp
    rw [payload7_mk7 _ _ (hall c (List.dropLast_subset _ hc)).2, hdl c hc]
  · rw [List.flatMap_map, ← hcat]
    apply flatMap_congr_mem
    intro c hc
    exact payload7_mk7 _ _ (hall c hc).2

example : GenuineId 0x7E0000 ∧ GenuineId 0x2109 := by decide

/-- C17: an example with two packets, one byte id. -/
example : sendSysex7 ⟨0x7E0000, [1, 2, 3, 4, 5, 0x86, 7]⟩ 3 =
    .ok [⟨0x33167E01, 0x02030405, 0, 0⟩, ⟨0x33320607, 0, 0, 0⟩] := by rfl

/-- C17: `as_sysex7_packets` gives the packets of `send_sysex7`, and a group above 15 is refused by an assertion. -/
theorem C17_bad_group (s : Sysex) (g : Byte) (hg : ¬ g < 16) :
    sendSysex7 s g = .error .assertFailed ∧ asSysex7Packets s g = .error .assertFailed := by
  have : sendSysex7 s g = .error .assertFailed := by
    unfold sendSysex7; rw [makeSysex7_fail _ hg]; rfl
  exact ⟨this, this⟩

example := C17_bad_group ⟨0x7E0000, [0x7F, 0x0D, 0x20, 2, 1, 2, 3, 4, 5, 6, 7, 8]⟩ 0x10 (by decide)

/-- C17, why the manufacturer id has to be genuine: a message without one and six data bytes is sent as a complete packet
followed by an end packet. -/
theorem C17_no_id_not_framed : ∃ ps, sendSysex7 ⟨0, [1, 2, 3, 4, 5, 6]⟩ 0 = .ok ps ∧ ps.map formatCode = [0, 3] ∧
    ¬ Framed (ps.map formatCode) := by
  refine ⟨_, rfl, by decide, ?_⟩
  rintro (h | ⟨n, h⟩)
  · exact absurd h (by decide)
  · exact absurd (congrArg List.head? h) (by simp [formatCode]; decide)

/-- C17, why the manufacturer id has to be genuine: id bytes in the first and in the other positions. -/
theorem C17_mixed_id_not_framed : ∃ ps, sendSysex7 ⟨0x410001, [1, 2, 3, 4]⟩ 0 = .ok ps ∧ ps.map formatCode = [0, 3] :=
  ⟨_, rfl, by decide⟩

/-! ## 8 bit sysex -/

/-- The manufacturer id bytes written by `send_sysex8` are those of the specification. -/
theorem sent_id8 (id : Word) (h : GenuineId id ∨ id = 0) :
    (if id &&& 0x00FFFF ≠ 0 then
      [(0x80 : Byte) + ((id >>> 8) &&& 0x7F).setWidth 8, (id &&& 0x7F).setWidth 8]
    else [0, ((id >>> 16) &&& 0x7F).setWidth 8] : List Byte) = idBytes8 id := by
  rw [id7_eq, id7_eq, id7_eq0]
  have e := (word_and_eq id).1
  unfold idBytes8
  rcases h with (h | h) | h
  · unfold OneByteId at h
    rw [if_neg (by rw [not_not, e]; omega), if_pos (by omega)]
    rw [show id.toNat / 2 ^ 16 % 128 = id.toNat / 65536 by omega]
  · unfold ThreeByteId at h
    rw [if_pos (by rw [ne_eq, e]; omega), if_neg (by omega)]
    rw [show id.toNat / 2 ^ 8 % 128 = id.toNat / 256 by omega, show id.toNat % 128 = id.toNat % 256 by omega,
      BitVec.ofNat_add]
    rfl
  · subst h; decide

theorem idBytes8_length (id : Word) : (idBytes8 id).length = 2 := by
  unfold idBytes8; split <;> simp

/-- `send_sysex8` in terms of chunks, for every manufacturer id. -/
theorem sendSysex8_any (s : Sysex) (st : Byte) {g : Byte} (hg : g < 16) :
    sendSysex8 s st g = .ok ((chunks 13 id (if s.totalDataSize ≤ 13 then .complete else .start)
      (if s.manufacturerID &&& 0x00FFFF ≠ 0 then
        [(0x80 : Byte) + ((s.manufacturerID >>> 8) &&& 0x7F).setWidth 8, (s.manufacturerID &&& 0x7F).setWidth 8]
      else [0, ((s.manufacturerID >>> 16) &&& 0x7F).setWidth 8]) s.data).map fun c => mk8 c.1 st g c.2) := by
  unfold sendSysex8
  rw [makeSysex8_eq _ _ hg]
  dsimp only
  have step : ∀ pl : List Byte, 0 < pl.length → pl.length < 13 →
      (do let (out, p) ← sendSysex8Loop st g (mk8 (if s.totalDataSize ≤ 13 then .complete else .start) st g pl)
            s.data.length s.data
          return if sysex8PayloadSize p ≠ 0 then out ++ [p] else out) =
      .ok ((chunks 13 id (if s.totalDataSize ≤ 13 then .complete else .start) pl s.data).map
        fun c => mk8 c.1 st g c.2) := by
    intro pl h0 h6
    rw [sendSysex8Loop_eq st hg _ _ _ _ h6]
    simp only [ok_bind, pure_eq_ok]
    unfold chunks
    rw [payloadSize_mk8 _ _ _ (Nat.le_of_lt (chunkLoop_last_lt (by omega) _ _ _ _ _ h6))]
    generalize chunkLoop 13 _ _ pl _ _ = r
    by_cases h : r.2.2.length ≠ 0
    · rw [if_pos h, if_pos h]; simp
    · rw [if_neg h, if_neg h]
  by_cases h : s.manufacturerID &&& 0x00FFFF ≠ 0
  · rw [if_pos h, if_pos h]
    rw [addPayload_mk8 _ _ (by simp)]
    simp only [ok_bind]
    rw [addPayload_mk8 _ _ (by simp)]
    simp only [ok_bind]
    exact step _ (by simp) (by simp)
  · rw [if_neg h, if_neg h]
    rw [addPayload_mk8 _ _ (by simp)]
    simp only [ok_bind]
    rw [addPayload_mk8 _ _ (by simp)]
    simp only [ok_bind]
    exact step _ (by simp) (by simp)

/-- `send_sysex8` in terms of chunks. -/
theorem sendSysex8_eq (s : Sysex) (st : Byte) {g : Byte} (hg : g < 16)
    (hid : GenuineId s.manufacturerID ∨ s.manufacturerID = 0) :
    sendSysex8 s st g = .ok ((chunks 13 id (if s.totalDataSize ≤ 13 then .complete else .start)
      (idBytes8 s.manufacturerID) s.data).map fun c => mk8 c.1 st g c.2) := by
  rw [← sent_id8 _ hid]
  exact sendSysex8_any s st hg

/-- The messages `send_sysex8` frames wrongly: a three byte manufacturer id with 11 data bytes, a one byte id with 12
data bytes and no id with 12 or 13 data bytes. -/
def Spec.BadLength8 (s : Sysex) : Prop :=
  (ThreeByteId s.manufacturerID ∧ s.data.length = 11) ∨ (OneByteId s.manufacturerID ∧ s.data.length = 12) ∨
    (s.manufacturerID = 0 ∧ (s.data.length = 12 ∨ s.data.length = 13))

instance (s : Sysex) : Decidable (BadLength8 s) := inferInstanceAs (Decidable (_ ∨ _))

theorem threshold8 (s : Sysex) (hid : GenuineId s.manufacturerID ∨ s.manufacturerID = 0) :
    (¬ BadLength8 s ↔ (s.totalDataSize ≤ 13 ↔ s.data.length ≤ 11)) ∧
    (ThreeByteId s.manufacturerID → s.totalDataSize = s.data.length + 3) ∧
    (OneByteId s.manufacturerID → s.totalDataSize = s.data.length + 1) ∧
    (s.manufacturerID = 0 → s.totalDataSize = s.data.length) := by
  have e3 : ThreeByteId s.manufacturerID → s.totalDataSize = s.data.length + 3 := by
    intro h
    rw [totalDataSize_genuine s (Or.inr h)]
    unfold idBytes7; unfold ThreeByteId at h
    rw [if_pos (by omega)]; simp; omega
  have e1 : OneByteId s.manufacturerID → s.totalDataSize = s.data.length + 1 := by
    intro h
    rw [totalDataSize_genuine s (Or.inl h)]
    unfold idBytes7; unfold OneByteId at h
    rw [if_neg (by omega)]; simp; omega
  have e0 : s.manufacturerID = 0 → s.totalDataSize = s.data.length := by
    intro h
    unfold Sysex.totalDataSize
    rw [if_neg (by simpa using h)]
  refine ⟨?_, e3, e1, e0⟩
  unfold BadLength8
  rcases hid with (h | h) | h
  · have n3 : ¬ ThreeByteId s.manufacturerID := by
      unfold OneByteId at h; unfold ThreeByteId; omega
    have n0 : s.manufacturerID ≠ 0 := by
      intro h0; rw [h0] at h; exact absurd h (by decide)
    have := e1 h
    simp only [n3, n0, h, true_and, false_and, false_or, or_false]
    omega
  · have n3 : ¬ OneByteId s.manufacturerID := by
      unfold ThreeByteId at h; unfold OneByteId; omega
    have n0 : s.manufacturerID ≠ 0 := by
      intro h0; rw [h0] at h; exact absurd h (by decide)
    have := e3 h
    simp only [n3, n0, h, true_and, false_and, or_false]
    omega
  · have n3 : ¬ OneByteId s.manufacturerID := by rw [h]; decide
    have n1 : ¬ ThreeByteId s.manufacturerID := by rw [h]; decide
    have := e0 h
    simp only [n3, n1, false_and, false_or]
    simp only [h, true_and]
    omega

/-- Facts about the packets of `send_sysex8` that hold for all lengths, and the formats they have. -/
theorem sendSysex8_facts (s : Sysex) (st g : Byte) (hg : g < 16)
    (hid : GenuineId s.manufacturerID ∨ s.manufacturerID = 0) :
    ∃ ps, sendSysex8 s st g = .ok ps ∧
      (∀ p ∈ ps, IsSysex8 p ∧ groupOf p = g.toNat ∧ stream8 p = st ∧ payload8 p ≠ []) ∧
      (∀ p ∈ ps.dropLast, (payload8 p).length = 13) ∧
      ps.flatMap payload8 = idBytes8 s.manufacturerID ++ s.data ∧
      (s.data.length ≤ 11 → ps.map formatCode = [if s.totalDataSize ≤ 13 then 0 else 1]) ∧
      (11 < s.data.length → ∃ n, ps.map formatCode =
        (if s.totalDataSize ≤ 13 then 0 else 1) :: (List.replicate n 2 ++ [3])) := by
  refine ⟨_, sendSysex8_eq s st hg hid, ?_⟩
  have hi := idBytes8_length s.manufacturerID
  have hc : ((if s.totalDataSize ≤ 13 then Format.complete else Format.start).code.toNat) =
      if s.totalDataSize ≤ 13 then 0 else 1 := by split <;> rfl
  have key : ∃ cs, chunks 13 id (if s.totalDataSize ≤ 13 then .complete else .start)
        (idBytes8 s.manufacturerID) s.data = cs ∧
      cs.flatMap (·.2) = idBytes8 s.manufacturerID ++ s.data ∧
      (∀ c ∈ cs.dropLast, c.2.length = 13) ∧ (∀ c ∈ cs, 0 < c.2.length ∧ c.2.length ≤ 13) ∧
      (s.data.length ≤ 11 → cs.map (·.1.code.toNat) = [if s.totalDataSize ≤ 13 then 0 else 1]) ∧
      (11 < s.data.length → ∃ n, cs.map (·.1.code.toNat) =
        (if s.totalDataSize ≤ 13 then 0 else 1) :: (List.replicate n 2 ++ [3])) := by
    refine ⟨_, rfl, ?_⟩
    by_cases h : s.data.length ≤ 11
    · rw [chunks_one _ _ _ _ (by omega) (by omega) (by omega)]
      refine ⟨?_, ?_, ?_, ?_, ?_⟩
      · simp
      · simp
      · simp; omega
      · intro _; simp [hc]
      · omega
    · obtain ⟨⟨k, hk⟩, hf, hd, ha⟩ :=
        chunks_framed (N := 13) id _ (if s.totalDataSize ≤ 13 then .complete else .start) (idBytes8 s.manufacturerID)
          s.data rfl (by omega) (by omega)
      refine ⟨by simpa using hf, hd, ha, by omega, fun _ => ⟨k, ?_⟩⟩
      rw [hk, hc]
  obtain ⟨cs, hcs, hcat, hdl, hall, h1, h2⟩ := key
  rw [hcs]
  have hfc : (cs.map fun c => mk8 c.1 st g c.2).map formatCode = cs.map (·.1.code.toNat) := by
    rw [List.map_map]
    apply List.map_congr_left
    intro c hc
    exact formatCode_mk8 _ _ _ (hall c hc).2
  refine ⟨?_, ?_, ?_, ?_, ?_⟩
  · intro p hp
    obtain ⟨c, hc, rfl⟩ := List.mem_map.1 hp
    have := hall c hc
    refine ⟨isSysex8_mk8 _ _ hg this.2, groupOf_mk8 _ _ hg, stream8_mk8 .., ?_⟩
    rw [payload8_mk8 _ _ _ this.2]
    intro h; rw [h] at this; simp at this
  · intro p hp
    rw [← List.map_dropLast] at hp
    obtain ⟨c, hc, rfl⟩ := List.mem_map.1 hp
    rw [payload8_mk8 _ _ _ (hall c (List.dropLast_subset _ hc)).2, hdl c hc]
  · rw [List.flatMap_map, ← hcat]
    apply flatMap_congr_mem
    intro c hc
    exact payload8_mk8 _ _ _ (hall c hc).2
  · rw [hfc]; exact h1
  · rw [hfc]; exact h2

/-- C19, full strength except for framing: for every message with a genuine or no manufacturer id, `send_sysex8` emits
sysex8 packets with the requested group and stream id whose concatenated payload is the two manufacturer id bytes
followed by the data; all packets but the last are full and none is empty. -/
theorem C19_send_sysex8_payload (s : Sysex) (st g : Byte) (hg : g < 16)
    (hid : GenuineId s.manufacturerID ∨ s.manufacturerID = 0) :
    ∃ ps, sendSysex8 s st g = .ok ps ∧
      (∀ p ∈ ps, IsSysex8 p ∧ groupOf p = g.toNat ∧ stream8 p = st ∧ payload8 p ≠ []) ∧
      (∀ p ∈ ps.dropLast, (payload8 p).length = 13) ∧
      ps.flatMap payload8 = idBytes8 s.manufacturerID ++ s.data := by
  obtain ⟨ps, h, h1, h2, h3, _⟩ := sendSysex8_facts s st g hg hid
  exact ⟨ps, h, h1, h2, h3⟩

/-- C19, exact condition: the packets of `send_sysex8` are correctly framed if and only if the message is none of the
few of `BadLength8`. Missing from the property: those messages, for which it is false (`C19_three_byte_id_no_end`,
`C19_one_byte_id_stray_end`). -/
theorem C19_send_sysex8_framed_partial (s : Sysex) (st g : Byte) (hg : g < 16)
    (hid : GenuineId s.manufacturerID ∨ s.manufacturerID = 0) :
    ∃ ps, sendSysex8 s st g = .ok ps ∧ (Framed (ps.map formatCode) ↔ ¬ BadLength8 s) := by
  obtain ⟨ps, h, _, _, _, h4, h5⟩ := sendSysex8_facts s st g hg hid
  refine ⟨ps, h, ?_⟩
  rw [(threshold8 s hid).1]
  by_cases hl : s.data.length ≤ 11
  · rw [h4 hl]
    by_cases ht : s.totalDataSize ≤ 13
    · simp only [ht, hl, if_true, iff_true]; exact Or.inl rfl
    · simp only [ht, hl, if_false, false_iff, not_true_eq_false, iff_false]
      rintro (h | ⟨n, h⟩) <;> simp at h
  · obtain ⟨n, hn⟩ := h5 (by omega)
    rw [hn]
    by_cases ht : s.totalDataSize ≤ 13
    · simp only [ht, hl, if_true, iff_false, not_true_eq_false]
      rintro (h | ⟨n, h⟩) <;> simp at h
    · simp only [ht, hl, if_false, iff_true]; exact Or.inr ⟨n, rfl⟩

example : ¬ BadLength8 ⟨0x2109, List.replicate 40 0xFF⟩ ∧ GenuineId 0x2109 := by decide

/-- C19 is false: with a three byte manufacturer id and eleven data bytes only a start packet is sent. -/
theorem C19_three_byte_id_no_end : ∃ ps, sendSysex8 ⟨0x002109, [1, 2, 3, 4, 5, 6, 7, 8, 9, 10, 11]⟩ 0 0 = .ok ps ∧
    ps.map formatCode = [1] := ⟨_, rfl, by decide⟩

/-- C19 is false: with a one byte manufacturer id and twelve data bytes a complete packet is followed by an end packet. -/
theorem C19_one_byte_id_stray_end :
    ∃ ps, sendSysex8 ⟨0x410000, [1, 2, 3, 4, 5, 6, 7, 8, 9, 10, 11, 12]⟩ 0 0 = .ok ps ∧ ps.map formatCode = [0, 3] :=
  ⟨_, rfl, by decide⟩

/-- C19: a group above 15 is not refused but corrupts the packet type. -/
theorem C19_group_corrupts_type : ∃ ps, sendSysex8 ⟨0x410000, [1]⟩ 0 0x20 = .ok ps ∧ ¬ ∀ p ∈ ps, IsSysex8 p :=
  ⟨_, rfl, by decide⟩

end Midi
