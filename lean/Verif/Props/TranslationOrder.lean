import Verif.Props.Translation

/-!
# C09 exactly, C78: translation keeps the order of values
-/

namespace Midi
open Packet

theorem velocityOf7_value (v : Byte) (hv : v < 128) : (velocityOf7 v).toNat = up7to16 v.toNat := by
  have : ∀ v : Byte, v < 128 → (velocityOf7 v).toNat = up7to16 v.toNat := by decide +kernel
  exact this v hv

theorem controllerOf7_value (v : Byte) (hv : v < 128) : (controllerOf7 v).toNat = up7to32 v.toNat := by
  have : ∀ v : Byte, v < 128 → (controllerOf7 v).toNat = up7to32 v.toNat := by decide +kernel
  exact this v hv

theorem pitchBendOf14_value (v : U16) (hv : v.toNat < 2 ^ 14) : ∃ r, pitchBendOf14 v = .ok r ∧ r.toNat = up14to32 v.toNat := by
  have e1 : (v.setWidth 32 <<< 18 : Word).toNat = v.toNat * 2 ^ 18 := by
    simp [Nat.shiftLeft_eq]; omega
  unfold pitchBendOf14 upsample14to32 up14to32
  rw [if_pos hv]
  by_cases hc : v > 8192
  · have hc' : 8192 < v.toNat := by simpa [BitVec.lt_def] using hc
    refine ⟨_, by simp only [if_pos hc]; rfl, ?_⟩
    rw [if_neg (by omega)]
    have e2 : ((v &&& 0x1FFF).setWidth 32 : Word).toNat = v.toNat % 8192 := by
      have : (v &&& 0x1FFF).toNat = v.toNat % 2 ^ 13 := by
        rw [BitVec.toNat_and, show ((0x1FFF : U16)).toNat = 2 ^ 13 - 1 from rfl, Nat.and_two_pow_sub_one_eq_mod]
      rw [BitVec.toNat_setWidth, this]; omega
    generalize ((v &&& 0x1FFF).setWidth 32 : Word) = w at e2
    have e3 : (w <<< 5 : Word).toNat = w.toNat <<< 5 := by
      rw [BitVec.toNat_shiftLeft, Nat.shiftLeft_eq, Nat.mod_eq_of_lt (by omega)]
    have e4 : (v.setWidth 32 <<< 18 : Word).toNat = v.toNat <<< 18 := by rw [e1, Nat.shiftLeft_eq]
    have l1 : w.toNat >>> 8 < 2 ^ 5 := by rw [Nat.shiftRight_eq_div_pow]; omega
    have l2 : w.toNat <<< 5 + w.toNat >>> 8 < 2 ^ 18 := by rw [Nat.shiftLeft_eq]; omega
    rw [BitVec.toNat_or, BitVec.toNat_or, BitVec.toNat_ushiftRight, e3, e4, ← Nat.shiftLeft_add_eq_or_of_lt l1,
      ← Nat.shiftLeft_add_eq_or_of_lt l2, Nat.shiftLeft_eq, Nat.shiftLeft_eq, Nat.shiftRight_eq_div_pow, e2]
  · have hc' : v.toNat ≤ 8192 := by simpa [BitVec.lt_def] using hc
    refine ⟨_, by simp only [if_neg hc]; rfl, ?_⟩
    rw [if_pos hc', Nat.add_zero]; exact e1

/-- C09: what a MIDI 1 channel voice message with 7 bit data is translated to, bit by bit. -/
theorem C09_translation (p : Packet) (h3 : p.byte3 < 128) (h4 : p.byte4 < 128) :
    match midi2DataOfMidi1 (p.status.toNat / 16) p.byte3.toNat p.byte4.toNat with
    | none => asMidi2 p = .ok none
    | some (opcode, index, data) => ∃ q, asMidi2 p = .ok (some q) ∧
        Midi2Layout q p.group.toNat opcode (p.status.toNat % 16) index 0 data := by
  obtain ⟨c8, c9z, c9, cA, cB, cC, cD, cE⟩ := asMidi2_cases p h3 h4
  have hg : p.group.toNat % 16 = p.group.toNat := Nat.mod_eq_of_lt p.group_lt
  have hc : (p.status &&& 0x0F).toNat % 16 = p.status.toNat % 16 := by rw [toNat_and0F, Nat.mod_mod]
  have e3 := and7F_of_lt h3
  have lay : ∀ (k i1 : Byte) (d : Word) (o i n : Nat), k.toNat / 16 = o → i1.toNat = i → d.toNat = n →
      Midi2Layout (midi2Message p.group k (p.status &&& 0x0F) i1 0 d) p.group.toNat o (p.status.toNat % 16) i 0 n := by
    intro k i1 d o i n h1 h2 h3
    have := C13_make p.group k (p.status &&& 0x0F) i1 0 d
    rw [hg, hc, h1, h2, h3] at this
    exact this
  have hnote : ∀ v : U16, (noteData v 0).toNat = v.toNat * 2 ^ 16 := by
    intro v
    have e : noteData v 0 = v.setWidth 32 <<< 16 := by unfold noteData; bits
    have := v.isLt
    rw [e, BitVec.toNat_shiftLeft, BitVec.toNat_setWidth, Nat.shiftLeft_eq]; omega
  have hshl : ∀ v : U16, (v.setWidth 32 <<< 16 : Word).toNat = v.toNat * 2 ^ 16 := by
    intro v
    have := v.isLt
    rw [BitVec.toNat_shiftLeft, BitVec.toNat_setWidth, Nat.shiftLeft_eq]; omega
  have hz : p.byte4 = 0 ↔ p.byte4.toNat = 0 := ⟨fun h => by rw [h]; rfl, fun h => BitVec.eq_of_toNat_eq h⟩
  have l3 : p.byte3.toNat < 128 := h3
  have l4 : p.byte4.toNat < 128 := h4
  have hst := fun k hk => status_nibble p.status k hk
  by_cases o8 : p.status.toNat / 16 = 8
  · rw [o8]
    refine ⟨_, c8 o8, ?_⟩
    unfold makeMidi2NoteOff
    rw [e3]
    exact lay _ _ _ _ _ _ rfl rfl (by rw [hnote, velocityOf7_value _ h4])
  by_cases o9 : p.status.toNat / 16 = 9
  · rw [o9]
    show match if p.byte4.toNat = 0 then some (0x8, p.byte3.toNat, 0x8000 * 2 ^ 16) else
      some (0x9, p.byte3.toNat, up7to16 p.byte4.toNat * 2 ^ 16) with | none => _ | some (opcode, index, data) => _
    by_cases h0 : p.byte4 = 0
    · rw [if_pos (hz.1 h0)]
      refine ⟨_, c9z o9 h0, ?_⟩
      unfold makeMidi2NoteOff
      rw [e3]
      exact lay _ _ _ _ _ _ rfl rfl (by rw [hnote, velocityOf7_value _ (by decide)]; rfl)
    · rw [if_neg (fun h => h0 (hz.2 h))]
      refine ⟨_, c9 o9 h0, ?_⟩
      exact lay _ _ _ _ _ _ rfl rfl (by rw [hshl, velocityOf7_value _ h4])
  by_cases oA : p.status.toNat / 16 = 10
  · rw [oA]
    exact ⟨_, cA oA, lay _ _ _ _ _ _ rfl rfl (controllerOf7_value _ h4)⟩
  by_cases oB : p.status.toNat / 16 = 11
  · rw [oB]
    show match if p.byte3.toNat ∈ sequenceControllers then none else
      some (0xB, p.byte3.toNat, up7to32 p.byte4.toNat) with | none => _ | some (opcode, index, data) => _
    by_cases hs : p.byte3.toNat ∈ sequenceControllers
    · rw [if_pos hs]
      show asMidi2 p = _
      rw [cB oB, if_pos ((untranslated_iff _).2 hs)]
    · rw [if_neg hs]
      refine ⟨_, by rw [cB oB, if_neg (fun h => hs ((untranslated_iff _).1 h))], ?_⟩
      unfold makeMidi2ControlChange
      rw [e3]
      exact lay _ _ _ _ _ _ rfl rfl (controllerOf7_value _ h4)
  by_cases oC : p.status.toNat / 16 = 12
  · rw [oC]
    refine ⟨_, cC oC, ?_⟩
    unfold makeMidi2ProgramChange
    rw [e3]
    refine lay _ _ _ _ _ _ rfl rfl ?_
    rw [BitVec.toNat_shiftLeft, BitVec.toNat_setWidth, Nat.shiftLeft_eq]; omega
  by_cases oD : p.status.toNat / 16 = 13
  · rw [oD]
    exact ⟨_, cD oD, lay _ _ _ _ _ _ rfl rfl (controllerOf7_value _ h3)⟩
  by_cases oE : p.status.toNat / 16 = 14
  · rw [oE]
    obtain ⟨r, er, hr⟩ := pitchBendOf14_value _ (value14_lt p.byte3 p.byte4 h3 h4)
    refine ⟨_, by rw [cE oE, er]; rfl, lay _ _ _ _ _ _ rfl rfl ?_⟩
    rw [hr]
    have := toNat_of14 p.byte3 p.byte4
    rw [e3, and7F_of_lt h4] at this
    rw [this, Nat.mod_eq_of_lt l3, Nat.mod_eq_of_lt l4]
  · have hn : midi2DataOfMidi1 (p.status.toNat / 16) p.byte3.toNat p.byte4.toNat = none := by
      unfold midi2DataOfMidi1
      split <;> first | omega | rfl
    rw [hn]
    show asMidi2 p = _
    unfold asMidi2 midi1Status
    have f : ∀ k : Byte, k.toNat % 16 = 0 → p.status.toNat / 16 ≠ k.toNat / 16 → ¬ p.status &&& 0xF0 = k :=
      fun k hk h h' => h ((hst k hk).1 h')
    simp only [if_neg (f CVStatus.noteOff rfl o8), if_neg (f CVStatus.noteOn rfl o9), if_neg (f CVStatus.polyPressure rfl oA),
      if_neg (f CVStatus.controlChange rfl oB), if_neg (f CVStatus.programChange rfl oC), if_neg (f CVStatus.channelPressure rfl oD),
      if_neg (f CVStatus.pitchBend rfl oE)]

example : midi2DataOfMidi1 0xE 0x12 0x5A = some (0xE, 0, 0xB449A24D) ∧ midi2DataOfMidi1 0x9 60 0x5A = some (0x9, 60, 0xB4D30000) ∧
    midi2DataOfMidi1 0xB 7 0x7F = some (0xB, 7, 0xFFFFFFFF) := by decide

/-! ## C78 -/

/-- The data bytes of a translated message. -/
theorem asMidi1_bytes {p r : Packet} (hr : asMidi1 p = some r) :
    midi1DataOfMidi2 (p.status.toNat / 16) (p.byte3.toNat % 128) (p.byte4.toNat % 128) p.w1.toNat =
      some (r.byte3.toNat, r.byte4.toNat) ∧ r.status = p.status := by
  have hw := C10_well_formed p r hr
  refine ⟨?_, hw.2.2.1⟩
  have ht := C10_translation p
  cases hm : midi1DataOfMidi2 (p.status.toNat / 16) (p.byte3.toNat % 128) (p.byte4.toNat % 128) p.w1.toNat with
  | none => rw [hm] at ht; simp [hr] at ht
  | some d =>
    obtain ⟨d1, d2⟩ := d
    rw [hm] at ht
    obtain ⟨r', hr', h0, -⟩ := ht
    obtain rfl : r' = r := by rw [hr] at hr'; exact (Option.some.inj hr').symm
    have hl := p.w1.isLt
    have hd : d1 < 128 ∧ d2 < 128 := by
      revert hm
      unfold midi1DataOfMidi2
      split <;> intro hm
      all_goals (try split at hm)
      all_goals (first | (cases hm; done) | skip)
      all_goals (simp only [Option.some.injEq, Prod.mk.injEq] at hm; omega)
    have b3 : r'.byte3.toNat = d1 := by rw [toNat_byte3, h0]; omega
    have b4 : r'.byte4.toNat = d2 := by rw [toNat_byte4, h0]; omega
    rw [b3, b4]

/-- The value of a translated message. -/
theorem asMidi1_value {p r : Packet} (hr : asMidi1 p = some r) (hC : p.status.toNat / 16 ≠ 0xC) :
    midi1Value (p.status.toNat / 16) r.byte3.toNat r.byte4.toNat =
      max (if p.status.toNat / 16 = 9 then 1 else 0) (p.w1.toNat / midi1Step (p.status.toNat / 16)) := by
  obtain ⟨h, -⟩ := asMidi1_bytes hr
  have hl := p.w1.isLt
  revert h hC
  generalize p.status.toNat / 16 = op
  intro hC h
  unfold midi1DataOfMidi2 at h
  split at h
  all_goals (try split at h)
  all_goals (first | (cases h; done) | skip)
  all_goals (simp only [Option.some.injEq, Prod.mk.injEq] at h)
  all_goals (try exact absurd rfl hC)
  all_goals simp only [midi1Value, midi1Step]
  all_goals (obtain ⟨h1, h2⟩ := h; simp; omega)

/-- C78: translation from MIDI 2 to MIDI 1 keeps the order of values. -/
theorem C78_to_midi1 (p p' r r' : Packet) (hs : p'.status.toNat / 16 = p.status.toNat / 16) (hC : p.status.toNat / 16 ≠ 0xC)
    (hr : asMidi1 p = some r) (hr' : asMidi1 p' = some r') (h : p.w1 ≤ p'.w1) :
    midi1Value (p.status.toNat / 16) r.byte3.toNat r.byte4.toNat ≤ midi1Value (p.status.toNat / 16) r'.byte3.toNat r'.byte4.toNat := by
  have h2 := asMidi1_value hr' (by rw [hs]; exact hC)
  rw [hs] at h2
  rw [asMidi1_value hr hC, h2]
  have : p.w1.toNat / midi1Step (p.status.toNat / 16) ≤ p'.w1.toNat / midi1Step (p.status.toNat / 16) := Nat.div_le_div_right h
  omega

example := C78_to_midi1 ⟨0x45E20000, 0x12345678, 0, 0⟩ ⟨0x45E20000, 0x92345678, 0, 0⟩ _ _ rfl (by decide) rfl rfl (by decide)

/-- The data word of a message translated to MIDI 2. -/
theorem asMidi2_data {p q : Packet} (h : WellFormedMidi1 p) (h9 : p.status.toNat / 16 = 9 → p.byte4 ≠ 0)
    (hq : asMidi2 p = .ok (some q)) :
    q.w1.toNat =
      (if p.status.toNat / 16 = 8 ∨ p.status.toNat / 16 = 9 then up7to16 p.byte4.toNat * 2 ^ 16
      else if p.status.toNat / 16 = 12 then p.byte3.toNat * 2 ^ 24
      else if p.status.toNat / 16 = 14 then up14to32 (p.byte3.toNat + 128 * p.byte4.toNat)
      else up7to32 (midi1Value (p.status.toNat / 16) p.byte3.toNat p.byte4.toNat)) ∧
    q.type = 4 ∧ q.group = p.group ∧ q.status = p.status := by
  obtain ⟨ht, hlo, hhi, h3, h4, hz⟩ := h
  have hx := C09_translation p h3 h4
  have h9' : p.status.toNat / 16 = 9 → p.byte4.toNat ≠ 0 := fun o e => h9 o (BitVec.eq_of_toNat_eq e)
  have hd : ∀ {o i n : Nat}, midi2DataOfMidi1 (p.status.toNat / 16) p.byte3.toNat p.byte4.toNat = some (o, i, n) →
      o = p.status.toNat / 16 ∧ i < 128 ∧ n = 
      (if p.status.toNat / 16 = 8 ∨ p.status.toNat / 16 = 9 then up7to16 p.byte4.toNat * 2 ^ 16
      else if p.status.toNat / 16 = 12 then p.byte3.toNat * 2 ^ 24
      else if p.status.toNat / 16 = 14 then up14to32 (p.byte3.toNat + 128 * p.byte4.toNat)
      else up7to32 (midi1Value (p.status.toNat / 16) p.byte3.toNat p.byte4.toNat)) := by
    have l3 : p.byte3.toNat < 128 := h3
    revert h9'
    generalize p.status.toNat / 16 = op
    generalize p.byte3.toNat = d1 at *
    generalize p.byte4.toNat = d2 at *
    intro h9' o i n hm
    unfold midi2DataOfMidi1 at hm
    split at hm
    all_goals (try split at hm)
    all_goals (first | (cases hm; done) | skip)
    all_goals (simp only [Option.some.injEq, Prod.mk.injEq] at hm; obtain ⟨rfl, rfl, rfl⟩ := hm)
    all_goals first | exact absurd (by assumption) (h9' rfl) | exact ⟨rfl, by omega, by simp [midi1Value]⟩
  cases hm : midi2DataOfMidi1 (p.status.toNat / 16) p.byte3.toNat p.byte4.toNat with
  | none =>
    rw [hm] at hx
    have hx : asMidi2 p = _ := hx
    rw [hx] at hq; cases hq
  | some d =>
    obtain ⟨o, i, n⟩ := d
    obtain ⟨rfl, hi, hn⟩ := hd hm
    rw [hm] at hx
    obtain ⟨q', e, h0, h1, -⟩ := hx
    obtain rfl : q' = q := by rw [hq] at e; exact (Option.some.inj (Except.ok.inj e)).symm
    have hg : p.group.toNat < 16 := p.group_lt
    have hst := p.status.isLt
    refine ⟨h1.trans hn, ?_, ?_, ?_⟩
    · rw [type_eq_iff, h0]; simp; omega
    · apply BitVec.eq_of_toNat_eq; rw [toNat_group, h0]; omega
    · apply BitVec.eq_of_toNat_eq; rw [toNat_status, h0]; omega

/-- The value before and after translation to MIDI 2. -/
theorem asMidi2_value {p q : Packet} (h : WellFormedMidi1 p) (hC : p.status.toNat / 16 ≠ 0xC)
    (h9 : p.status.toNat / 16 = 9 → p.byte4 ≠ 0) (hq : asMidi2 p = .ok (some q)) :
    q.w1.toNat / midi1Step (p.status.toNat / 16) = midi1Value (p.status.toNat / 16) p.byte3.toNat p.byte4.toNat := by
  obtain ⟨e, -⟩ := asMidi2_data h h9 hq
  obtain ⟨ht, hlo, hhi, h3, h4, hz⟩ := h
  have l3 : p.byte3.toNat < 128 := h3
  have l4 : p.byte4.toNat < 128 := h4
  rw [e]
  clear * - hlo hhi hC l3 l4
  revert hlo hhi hC
  generalize p.status.toNat / 16 = op
  generalize p.byte3.toNat = d1 at *
  generalize p.byte4.toNat = d2 at *
  intro hlo hhi hC
  obtain rfl | rfl | rfl | rfl | rfl | rfl : op = 8 ∨ op = 9 ∨ op = 10 ∨ op = 11 ∨ op = 13 ∨ op = 14 := by omega
  all_goals simp [midi1Step, midi1Value, up7to16, up7to32, up14to32]
  all_goals split <;> omega

/-- C78: translation from MIDI 1 to MIDI 2 keeps the order of values, and different values remain different. -/
theorem C78_to_midi2 (p p' q q' : Packet) (h : WellFormedMidi1 p) (h' : WellFormedMidi1 p')
    (hs : p'.status.toNat / 16 = p.status.toNat / 16) (hC : p.status.toNat / 16 ≠ 0xC)
    (h9 : p.status.toNat / 16 = 9 → p.byte4 ≠ 0 ∧ p'.byte4 ≠ 0) (hq : asMidi2 p = .ok (some q)) (hq' : asMidi2 p' = .ok (some q')) :
    q.w1 < q'.w1 ↔
    midi1Value (p.status.toNat / 16) p.byte3.toNat p.byte4.toNat < midi1Value (p.status.toNat / 16) p'.byte3.toNat p'.byte4.toNat := by
  have v := asMidi2_value h hC (fun o => (h9 o).1) hq
  have v' := asMidi2_value h' (by rw [hs]; exact hC) (fun o => (h9 (hs ▸ o)).2) hq'
  rw [hs] at v'
  rw [← v, ← v', BitVec.lt_def]
  constructor
  · intro hlt
    have hle : q.w1.toNat / midi1Step (p.status.toNat / 16) ≤ q'.w1.toNat / midi1Step (p.status.toNat / 16) :=
      Nat.div_le_div_right (Nat.le_of_lt hlt)
    rcases Nat.lt_or_eq_of_le hle with hl | he
    · exact hl
    · exfalso
      rw [v, v'] at he
      have e1 := (asMidi2_data h (fun o => (h9 o).1) hq).1
      have e2 := (asMidi2_data h' (fun o => (h9 (hs ▸ o)).2) hq').1
      rw [hs] at e2
      have : q.w1.toNat = q'.w1.toNat := by
        rw [e1, e2]
        clear * - he hC h
        have hlo := h.2.1
        have hhi := h.2.2.1
        revert he hC hlo hhi
        generalize p.status.toNat / 16 = op
        intro hC he hlo hhi
        obtain rfl | rfl | rfl | rfl | rfl | rfl : op = 8 ∨ op = 9 ∨ op = 10 ∨ op = 11 ∨ op = 13 ∨ op = 14 := by omega
        all_goals (simp [midi1Value] at he ⊢; try rw [he])
      omega
  · intro hlt
    by_contra hge
    have : q'.w1.toNat / midi1Step (p.status.toNat / 16) ≤ q.w1.toNat / midi1Step (p.status.toNat / 16) :=
      Nat.div_le_div_right (by omega)
    omega

example := C78_to_midi2 ⟨0x23913C01, 0, 0, 0⟩ ⟨0x23903C5A, 0, 0, 0⟩ _ _ (by decide) (by decide) rfl (by decide) (by decide) rfl rfl

/-- C78: the way from MIDI 2 to MIDI 1 and back to MIDI 2 changes a value by less than one step of MIDI 1: both values have the same
upper 7 or 14 bits, except that the velocity of a Note On is raised to the smallest one of MIDI 1. -/
theorem C78_precision (p r q : Packet) (hC : p.status.toNat / 16 ≠ 0xC) (hr : asMidi1 p = some r) (hq : asMidi2 r = .ok (some q)) :
    q.status = p.status ∧ q.w1.toNat / midi1Step (p.status.toNat / 16) =
      max (if p.status.toNat / 16 = 9 then 1 else 0) (p.w1.toNat / midi1Step (p.status.toNat / 16)) := by
  obtain ⟨hw, -, hs, -, -, -, hn⟩ := C10_well_formed p r hr
  have h9 : r.status.toNat / 16 = 9 → r.byte4 ≠ 0 := by
    intro h9 h0
    rcases (C11_meaning r).1.1 (hn h9) with h | h
    · rw [hw.1] at h; exact absurd h.1 (by decide)
    · exact h.2.2 h0
  have hd := asMidi2_data hw h9 hq
  refine ⟨hd.2.2.2.trans hs, ?_⟩
  have := asMidi2_value hw (by rw [hs]; exact hC) h9 hq
  rw [hs] at this
  rw [this, asMidi1_value hr hC]

example := C78_precision ⟨0x45E20000, 0x12345678, 0, 0⟩ _ _ (by decide) rfl rfl

/-- C78: the smallest, the middle and the largest value of MIDI 1 become the smallest, the middle and the largest value of MIDI 2:
for velocities, in the upper 16 bits of the data word. -/
theorem C78_fixed_points :
    (up7to16 0 = 0 ∧ up7to16 64 = 2 ^ 15 ∧ up7to16 127 = 2 ^ 16 - 1) ∧
    (up7to32 0 = 0 ∧ up7to32 64 = 2 ^ 31 ∧ up7to32 127 = 2 ^ 32 - 1) ∧
    (up14to32 0 = 0 ∧ up14to32 8192 = 2 ^ 31 ∧ up14to32 16383 = 2 ^ 32 - 1) := by decide

/-- C78: the data words these are the fixed points of. -/
theorem C78_data (p q : Packet) (h : WellFormedMidi1 p) (h9 : p.status.toNat / 16 = 9 → p.byte4 ≠ 0) (hq : asMidi2 p = .ok (some q)) :
    q.w1.toNat =
      (if p.status.toNat / 16 = 8 ∨ p.status.toNat / 16 = 9 then up7to16 p.byte4.toNat * 2 ^ 16
      else if p.status.toNat / 16 = 12 then p.byte3.toNat * 2 ^ 24
      else if p.status.toNat / 16 = 14 then up14to32 (p.byte3.toNat + 128 * p.byte4.toNat)
      else up7to32 (midi1Value (p.status.toNat / 16) p.byte3.toNat p.byte4.toNat)) := (asMidi2_data h h9 hq).1

-- the hypotheses are met: note ons with velocities 1 and 90, pitch bends
example : WellFormedMidi1 ⟨0x23913C01, 0, 0, 0⟩ ∧ WellFormedMidi1 ⟨0x23903C5A, 0, 0, 0⟩ ∧
    asMidi2 ⟨0x23913C01, 0, 0, 0⟩ = .ok (some ⟨0x43913C00, 0x02000000, 0, 0⟩) ∧
    asMidi2 ⟨0x23903C5A, 0, 0, 0⟩ = .ok (some ⟨0x43903C00, 0xB4D30000, 0, 0⟩) := by decide +kernel

example : asMidi1 ⟨0x45E20000, 0x12345678, 0, 0⟩ = some ⟨0x25E20D09, 0, 0, 0⟩ ∧
    asMidi2 ⟨0x25E20D09, 0, 0, 0⟩ = .ok (some ⟨0x45E20000, 0x12340000, 0, 0⟩) := by decide +kernel

end Midi
