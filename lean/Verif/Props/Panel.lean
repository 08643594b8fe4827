import Verif.Props.Sounding
import Verif.Spec.Panel

/-!
# C109: what an instrument is set to, before and after translation
-/

namespace Midi
open Spec Packet

/-! ## One packet -/

/-- What a packet sets, from its fields. -/
def knobOf (t o b3 b4 d : Nat) : Option (Knob × Nat) :=
  if t = 2 then
    match o with
    | 10 => some (.pressureOf (b3 % 128), up7to32 (b4 % 128))
    | 11 => some (.controller (b3 % 128), up7to32 (b4 % 128))
    | 12 => some (.program, b3 % 128)
    | 13 => some (.pressure, up7to32 (b3 % 128))
    | 14 => some (.bend, up14to32 (b3 + 128 * b4))
    | _ => none
  else if t = 4 then
    match o with
    | 10 => some (.pressureOf (b3 % 128), d)
    | 11 => some (.controller (b3 % 128), d)
    | 12 => some (.program, d / 2 ^ 24 % 128)
    | 13 => some (.pressure, d)
    | 14 => some (.bend, d)
    | _ => none
  else none

/-- The panel after a packet. -/
def turned (s : Panel) (p : Packet) : Panel :=
  match knobOf p.type.toNat (p.status.toNat / 16) p.byte3.toNat p.byte4.toNat p.w1.toNat with
  | some (k, v) => s.turn p.group.toNat (p.status.toNat % 16) k v
  | none => s

theorem cv_status (p : Packet) (k : Nat) (hk : k < 16) (b : Byte) (hb : b = BitVec.ofNat 8 (k * 16)) :
    isCVWithStatus p b = true ↔ (p.type = 2 ∨ p.type = 4) ∧ p.status.toNat / 16 = k := by
  have : ∀ st : Byte, ∀ k < 16, ((st &&& 0xF0) = BitVec.ofNat 8 (k * 16) ↔ st.toNat / 16 = k) := by decide +kernel
  unfold isCVWithStatus Packet.isChannelVoice
  rw [hb, Bool.and_eq_true, beq_iff_eq, this _ k hk, Bool.or_eq_true, beq_iff_eq, beq_iff_eq]
  exact and_comm

theorem panel_receive (s : Panel) (p : Packet) (h : p.type = 2 → p.byte3 < 128 ∧ p.byte4 < 128) : s.receive p = .ok (turned s p) := by
  have hA := cv_status p 10 (by decide) 0xA0 rfl
  have hB := cv_status p 11 (by decide) 0xB0 rfl
  have hC := cv_status p 12 (by decide) 0xC0 rfl
  have hD := cv_status p 13 (by decide) 0xD0 rfl
  have hE := cv_status p 14 (by decide) 0xE0 rfl
  unfold Panel.receive isPolyPressure isControlChange isProgramChange isChannelPressure isPitchBend turned
  by_cases hcv : p.type = 2 ∨ p.type = 4
  swap
  · simp only [hcv, false_and, Bool.not_eq_true, iff_false] at hA hB hC hD hE
    rw [hA, hB, hC, hD, hE]
    have n2 : p.type.toNat ≠ 2 := fun e => hcv (.inl (BitVec.eq_of_toNat_eq e))
    have n4 : p.type.toNat ≠ 4 := fun e => hcv (.inr (BitVec.eq_of_toNat_eq e))
    unfold knobOf
    rw [if_neg n2, if_neg n4]
    rfl
  have hc : p.channel = .ok (p.byte2 &&& 0x0F) := by
    unfold Packet.channel
    rw [show p.hasChannel = true by
      unfold Packet.hasChannel
      rcases hcv with e | e <;> rw [e] <;> rfl]
    rfl
  have hcn : (p.byte2 &&& 0x0F).toNat = p.status.toNat % 16 := by
    rw [BitVec.toNat_and]; exact Nat.and_two_pow_sub_one_eq_mod _ 4
  have h7 : ∀ b : Byte, (b &&& 0x7F).toNat = b.toNat % 128 := fun b => by
    rw [BitVec.toNat_and]; exact Nat.and_two_pow_sub_one_eq_mod _ 7
  have l7 : ∀ b : Byte, (b &&& 0x7F) < 128 := fun b => by
    rw [BitVec.lt_def, h7]; exact Nat.mod_lt _ (by decide)
  simp only [hcv, true_and] at hA hB hC hD hE
  rw [hc]
  simp only [ok_bind, hcn]
  unfold noteNr controllerNr
  rw [h7]
  by_cases oA : p.status.toNat / 16 = 10
  · rw [if_pos (hA.2 oA), oA]
    rcases hcv with e | e
    · unfold controllerValue; rw [e, if_pos (show (2 : Byte) = PacketType.midi1ChannelVoice from rfl), controllerOf7_value _ (l7 _), h7]; rfl
    · unfold controllerValue; rw [e]; rfl
  rw [if_neg (fun e => oA (hA.1 e))]
  by_cases oB : p.status.toNat / 16 = 11
  · rw [if_pos (hB.2 oB), oB]
    rcases hcv with e | e
    · unfold controllerValue; rw [e, if_pos (show (2 : Byte) = PacketType.midi1ChannelVoice from rfl), controllerOf7_value _ (l7 _), h7]; rfl
    · unfold controllerValue; rw [e]; rfl
  rw [if_neg (fun e => oB (hB.1 e))]
  by_cases oC : p.status.toNat / 16 = 12
  · rw [if_pos (hC.2 oC), oC]
    rcases hcv with e | e
    · unfold programValue; rw [e, if_pos (show (2 : Byte) = PacketType.midi1ChannelVoice from rfl), h7]; rfl
    · have : (((p.w1 >>> 24) &&& 0x7F).setWidth 8 : Byte).toNat = p.w1.toNat / 2 ^ 24 % 128 := by
        rw [BitVec.toNat_setWidth, BitVec.toNat_and, BitVec.toNat_ushiftRight, Nat.shiftRight_eq_div_pow,
          show ((0x7F : Word)).toNat = 2 ^ 7 - 1 from rfl, Nat.and_two_pow_sub_one_eq_mod]
        omega
      unfold programValue; rw [e, if_neg (show (4 : Byte) ≠ PacketType.midi1ChannelVoice by decide), if_pos (show (4 : Byte) = PacketType.midi2ChannelVoice from rfl), this]; rfl
  rw [if_neg (fun e => oC (hC.1 e))]
  by_cases oD : p.status.toNat / 16 = 13
  · rw [if_pos (hD.2 oD), oD]
    rcases hcv with e | e
    · unfold channelPressureValue; rw [e, if_pos (show (2 : Byte) = PacketType.midi1ChannelVoice from rfl), controllerOf7_value _ (l7 _), h7]; rfl
    · unfold channelPressureValue; rw [e]; rfl
  rw [if_neg (fun e => oD (hD.1 e))]
  by_cases oE : p.status.toNat / 16 = 14
  · rw [if_pos (hE.2 oE), oE]
    rcases hcv with e | e
    · obtain ⟨h3, h4⟩ := h e
      have e14 : (p.byte3.setWidth 16 ||| (p.byte4.setWidth 16 <<< 7) : U16).toNat = p.byte3.toNat + 128 * p.byte4.toNat := by
        rw [BitVec.lt_def] at h3 h4
        have h3 : p.byte3.toNat < 128 := h3
        have h4 : p.byte4.toNat < 128 := h4
        rw [BitVec.or_comm, BitVec.toNat_or, BitVec.toNat_shiftLeft, BitVec.toNat_setWidth, BitVec.toNat_setWidth,
          Nat.mod_eq_of_lt (show p.byte3.toNat < 2 ^ 16 by omega), Nat.mod_eq_of_lt (show p.byte4.toNat < 2 ^ 16 by omega),
          Nat.mod_eq_of_lt (show p.byte4.toNat <<< 7 < 2 ^ 16 by rw [Nat.shiftLeft_eq]; omega), ← Nat.shiftLeft_add_eq_or_of_lt (show p.byte3.toNat < 2 ^ 7 by omega), Nat.shiftLeft_eq]
        omega
      obtain ⟨r, er, vr⟩ := pitchBendOf14_value (p.byte3.setWidth 16 ||| (p.byte4.setWidth 16 <<< 7)) (by
        rw [e14]; rw [BitVec.lt_def] at h3 h4
        have h3 : p.byte3.toNat < 128 := h3
        have h4 : p.byte4.toNat < 128 := h4
        omega)
      rw [show pitchBendValue p = .ok r by unfold pitchBendValue; rw [e, if_pos (show (2 : Byte) = PacketType.midi1ChannelVoice from rfl), er], ok_bind, vr, e14, e]
      rfl
    · rw [show pitchBendValue p = .ok p.w1 by unfold pitchBendValue; rw [e]; rfl, ok_bind, e]
      rfl
  rw [if_neg (fun e => oE (hE.1 e))]
  have : knobOf p.type.toNat (p.status.toNat / 16) p.byte3.toNat p.byte4.toNat p.w1.toNat = none := by
    unfold knobOf
    generalize p.status.toNat / 16 = o at *
    split
    · split <;> first | rfl | omega
    · split
      · split <;> first | rfl | omega
      · rfl
  rw [this]
  rfl

theorem panelAfter_eq (s : Panel) (ps : List Packet) (h : ∀ p ∈ ps, p.type = 2 → p.byte3 < 128 ∧ p.byte4 < 128) :
    panelAfter s ps = .ok (ps.foldl turned s) := by
  induction ps generalizing s with
  | nil => rfl
  | cons p ps ih =>
    unfold panelAfter
    rw [panel_receive s p (h p (by simp)), ok_bind, ih _ fun q hq => h q (by simp [hq])]
    rfl

theorem coarse_turn (s : Panel) (g c : Nat) (k : Knob) (v : Nat) : (s.turn g c k v).coarse = s.coarse.turn g c k (k.coarse v) := by
  funext g' c' k'
  unfold Panel.coarse Panel.turn
  dsimp only
  split
  · next h => rw [h.2.2]
  · rfl

theorem up7_upper {v : Nat} (h : v < 128) : up7to32 v / 2 ^ 25 = v := by unfold up7to32; split <;> omega
theorem up14_upper {v : Nat} (h : v < 16384) : up14to32 v / 2 ^ 18 = v := by unfold up14to32; split <;> omega

/-- MIDI 1 messages have values that remain. -/
theorem coarse_midi1 {o b3 b4 d v : Nat} {k : Knob} (h3 : b3 < 128) (h4 : b4 < 128) (h : knobOf 2 o b3 b4 d = some (k, v)) :
    k.coarse v = v := by
  unfold knobOf at h
  rw [if_pos rfl] at h
  split at h
  all_goals first
    | cases h; done
    | (simp only [Option.some.injEq, Prod.mk.injEq] at h; obtain ⟨rfl, rfl⟩ := h; unfold Knob.coarse; dsimp only)
  · rw [up7_upper (by omega)]
  · rw [up7_upper (by omega)]
  · rw [up7_upper (by omega)]
  · rw [up14_upper (by omega)]

theorem turned_coarse {p : Packet} (s : Panel) (h : p.type = 2 → p.byte3 < 128 ∧ p.byte4 < 128) (h4 : p.type ≠ 4) :
    turned s.coarse p = (turned s p).coarse := by
  unfold turned
  have n4 : p.type.toNat ≠ 4 := fun e => h4 (BitVec.eq_of_toNat_eq e)
  generalize hk : knobOf p.type.toNat (p.status.toNat / 16) p.byte3.toNat p.byte4.toNat p.w1.toNat = k
  rcases k with _ | ⟨k, v⟩
  · rfl
  · dsimp only
    have t2 : p.type.toNat = 2 := by
      by_contra n2
      unfold knobOf at hk
      rw [if_neg n2, if_neg n4] at hk
      cases hk
    obtain ⟨h3, h4⟩ := h (BitVec.eq_of_toNat_eq t2)
    rw [BitVec.lt_def] at h3 h4
    rw [t2] at hk
    rw [coarse_turn, coarse_midi1 h3 h4 hk]

/-- Translating a packet to MIDI 2. -/
theorem panel_upgrade (p : Packet) (h : p.type = 2 → p.byte3 < 128 ∧ p.byte4 < 128) : ∃ qs, upgrade p = .ok qs ∧
    (∀ q ∈ qs, q.type ≠ 2) ∧ (∀ q ∈ qs, programWithBank q = true → programWithBank p = true) ∧
    ∀ s, qs.foldl turned s = if sequenceControl 2 p then s else turned s p := by
  unfold upgrade asMidi1View isMidi1CV
  by_cases ht : p.type = 2
  swap
  · rw [if_neg (by simpa [PacketType.midi1ChannelVoice] using ht)]
    refine ⟨[p], rfl, by simpa using ht, by simp, fun s => ?_⟩
    rw [show sequenceControl 2 p = false by unfold sequenceControl; rw [beq_eq_false_iff_ne.2 ht]; rfl]
    rfl
  rw [if_pos (by simp [PacketType.midi1ChannelVoice, ht])]
  rw [show midi1View p = .ok p by unfold midi1View isMidi1CV; rw [ht]; rfl]
  obtain ⟨h3, h4⟩ := h ht
  have c := C09_translation p h3 h4
  rw [BitVec.lt_def] at h3 h4
  have h3 : p.byte3.toNat < 128 := h3
  have h4 : p.byte4.toNat < 128 := h4
  have hs := p.status.isLt
  have gl : p.group.toNat < 16 := by have := Packet.group_lt p; rw [BitVec.lt_def] at this; exact this
  have hsc : sequenceControl 2 p = true ↔ p.status.toNat / 16 = 11 ∧ p.byte3.toNat ∈ sequenceControllers := by
    unfold sequenceControl
    rw [ht, Nat.mod_eq_of_lt h3]
    simp
  generalize hm : midi2DataOfMidi1 (p.status.toNat / 16) p.byte3.toNat p.byte4.toNat = m at c
  rcases m with _ | ⟨o, i, d⟩
  · refine ⟨[], by change (asMidi2 p >>= fun o => pure o.toList) = _; rw [show asMidi2 p = .ok none from c]; rfl, by simp, by simp, fun s => ?_⟩
    split
    · rfl
    · next hq =>
      rw [hsc] at hq
      unfold turned
      rw [show knobOf p.type.toNat (p.status.toNat / 16) p.byte3.toNat p.byte4.toNat p.w1.toNat = none by
        rw [ht]
        generalize p.status.toNat / 16 = o at hm hq
        show knobOf 2 _ _ _ _ = none
        unfold knobOf
        rw [if_pos rfl]
        unfold midi2DataOfMidi1 at hm
        split at hm <;> first | rfl | (cases hm; done) | skip
        · split at hm
          · next hh => exact absurd ⟨rfl, hh⟩ hq
          · cases hm
        · split <;> first | rfl | (exfalso; simp_all)]
      rfl
  · obtain ⟨q, e, lw, lw1, -⟩ := c
    have ho : o < 16 ∧ i < 128 := by
      unfold midi2DataOfMidi1 at hm
      split at hm <;> (try split at hm) <;> simp at hm <;> omega
    have q1 := toNat_type q
    have q2 := toNat_group q
    have q3 := toNat_status q
    have q4 := toNat_byte3 q
    have q5 := toNat_byte4 q
    rw [lw] at q1 q2 q3 q4 q5
    have e1 : q.type.toNat = 4 := by omega
    have e2 : q.group.toNat = p.group.toNat := by omega
    have e3 : q.status.toNat / 16 = o := by omega
    have e3' : q.status.toNat % 16 = p.status.toNat % 16 := by omega
    have e4 : q.byte3.toNat = i := by omega
    have e5 : q.byte4.toNat = 0 := by omega
    refine ⟨[q], by change (asMidi2 p >>= fun o => pure o.toList) = _; rw [show asMidi2 p = .ok (some q) from e]; rfl,
      ?_, ?_, fun s => ?_⟩
    · intro x hx
      rw [List.mem_singleton.1 hx]
      intro e; rw [e] at e1; cases e1
    · intro x hx
      rw [List.mem_singleton.1 hx]
      unfold programWithBank
      simp [e5]
    · rw [if_neg (by
        rw [hsc]
        rintro ⟨a, b⟩
        rw [a] at hm
        unfold midi2DataOfMidi1 at hm
        simp [b] at hm)]
      show turned s q = turned s p
      unfold turned
      rw [e1, e2, e3, e3', e4, e5, lw1, ht]
      have : knobOf 4 o i 0 d = knobOf 2 (p.status.toNat / 16) p.byte3.toNat p.byte4.toNat p.w1.toNat := by
        generalize p.status.toNat / 16 = o' at hm
        unfold midi2DataOfMidi1 at hm
        unfold knobOf
        rw [if_neg (by decide), if_pos rfl, if_pos rfl]
        split at hm
        all_goals (try split at hm)
        all_goals (simp only [Option.some.injEq, Prod.mk.injEq, reduceCtorEq] at hm)
        all_goals (obtain ⟨rfl, rfl, rfl⟩ := hm)
        all_goals simp [Nat.mod_eq_of_lt h3, Nat.mod_eq_of_lt h4]
        all_goals (try omega)
      rw [this]
      rfl

/-- Translating a packet to MIDI 1. -/
theorem panel_downgrade (p : Packet) (h : p.type = 2 → p.byte3 < 128 ∧ p.byte4 < 128) : ∃ qs, downgrade p = .ok qs ∧
    (∀ q ∈ qs, q.type ≠ 4) ∧ (∀ q ∈ qs, q.type = 2 → q.byte3 < 128 ∧ q.byte4 < 128) ∧
    ∀ s : Panel, qs.foldl turned s.coarse = (if sequenceControl 4 p || programWithBank p then s else turned s p).coarse := by
  unfold downgrade asMidi2View isMidi2CV
  by_cases ht : p.type = 4
  swap
  · rw [if_neg (by simpa [PacketType.midi2ChannelVoice] using ht)]
    refine ⟨[p], rfl, by simpa using ht, by simpa using h, fun s => ?_⟩
    rw [show sequenceControl 4 p = false by unfold sequenceControl; rw [beq_eq_false_iff_ne.2 ht]; rfl,
      show programWithBank p = false by unfold programWithBank; rw [beq_eq_false_iff_ne.2 ht]; rfl]
    exact turned_coarse s h ht
  rw [if_pos (by simp [PacketType.midi2ChannelVoice, ht])]
  rw [show midi2View p = .ok p by unfold midi2View; rw [ht]; rfl]
  refine ⟨(asMidi1 p).toList, rfl, ?_⟩
  have c := C10_translation p
  have hs := p.status.isLt
  have hw := p.w1.isLt
  have gl : p.group.toNat < 16 := by have := Packet.group_lt p; rw [BitVec.lt_def] at this; exact this
  have hsc : (sequenceControl 4 p || programWithBank p) = true ↔
      p.status.toNat / 16 = 11 ∧ p.byte3.toNat % 128 ∈ sequenceControllers ∨ p.status.toNat / 16 = 12 ∧ p.byte4.toNat % 128 % 2 ≠ 0 := by
    unfold sequenceControl programWithBank
    rw [ht]
    simp
  generalize hm : midi1DataOfMidi2 (p.status.toNat / 16) (p.byte3.toNat % 128) (p.byte4.toNat % 128) p.w1.toNat = m at c
  rcases m with _ | ⟨d1, d2⟩
  · rw [show asMidi1 p = none from c]
    refine ⟨by simp, by simp, fun s => ?_⟩
    split
    · rfl
    · next hq =>
      rw [hsc] at hq
      unfold turned
      rw [show knobOf p.type.toNat (p.status.toNat / 16) p.byte3.toNat p.byte4.toNat p.w1.toNat = none by
        rw [ht]
        generalize p.status.toNat / 16 = o at hm hq
        show knobOf 4 _ _ _ _ = none
        unfold knobOf
        rw [if_neg (by decide), if_pos rfl]
        unfold midi1DataOfMidi2 at hm
        split at hm <;> first | rfl | (cases hm; done) | skip
        · split at hm
          · next hh => exact absurd (.inl ⟨rfl, hh⟩) hq
          · cases hm
        · split at hm
          · cases hm
          · next hh => exact absurd (.inr ⟨rfl, hh⟩) hq
        · split <;> first | rfl | (exfalso; simp_all)]
      rfl
  · obtain ⟨r, e, lw, -⟩ := c
    rw [e]
    have hd : d1 < 128 ∧ d2 < 128 := by
      generalize p.status.toNat / 16 = o at hm
      unfold midi1DataOfMidi2 at hm
      split at hm <;> (try split at hm) <;> simp at hm <;> omega
    have q1 := toNat_type r
    have q2 := toNat_group r
    have q3 := toNat_status r
    have q4 := toNat_byte3 r
    have q5 := toNat_byte4 r
    rw [lw] at q1 q2 q3 q4 q5
    have e1 : r.type.toNat = 2 := by omega
    have e2 : r.group.toNat = p.group.toNat := by omega
    have e3 : r.status.toNat = p.status.toNat := by omega
    have e4 : r.byte3.toNat = d1 := by omega
    have e5 : r.byte4.toNat = d2 := by omega
    refine ⟨?_, ?_, fun s => ?_⟩
    · intro x hx
      rw [List.mem_singleton.1 hx]
      intro e; rw [e] at e1; cases e1
    · intro x hx _
      rw [List.mem_singleton.1 hx, BitVec.lt_def, BitVec.lt_def, e4, e5]
      exact hd
    · rw [if_neg (by
        rw [hsc]
        rintro (⟨a, b⟩ | ⟨a, b⟩)
        · rw [a] at hm
          change (if p.byte3.toNat % 128 ∈ sequenceControllers then none else _) = _ at hm
          rw [if_pos b] at hm
          cases hm
        · rw [a] at hm
          change (if p.byte4.toNat % 128 % 2 = 0 then _ else none) = _ at hm
          rw [if_neg b] at hm
          cases hm)]
      show turned s.coarse r = (turned s p).coarse
      unfold turned
      rw [e1, e2, e3, e4, e5, ht]
      have : knobOf 2 (p.status.toNat / 16) d1 d2 r.w1.toNat =
          (knobOf 4 (p.status.toNat / 16) p.byte3.toNat p.byte4.toNat p.w1.toNat).map fun x => (x.1, x.1.coarse x.2) := by
        generalize p.status.toNat / 16 = o' at hm
        unfold midi1DataOfMidi2 at hm
        unfold knobOf
        rw [if_pos rfl, if_neg (by decide), if_pos rfl]
        split at hm
        all_goals (try split at hm)
        all_goals (simp only [Option.some.injEq, Prod.mk.injEq, reduceCtorEq] at hm)
        all_goals (obtain ⟨rfl, rfl⟩ := hm; simp [Knob.coarse])
        all_goals (try simp [Nat.mod_eq_of_lt, show p.w1.toNat / 33554432 < 128 by omega])
        exact congrArg up14to32 (by omega)
      rw [this]
      rw [show (4 : Byte).toNat = 4 from rfl]
      rcases knobOf 4 (p.status.toNat / 16) p.byte3.toNat p.byte4.toNat p.w1.toNat with _ | ⟨k, v⟩
      · rfl
      · exact (coarse_turn _ _ _ _ _).symm

theorem panel_translated {f : Packet → Except Fault (List Packet)} (Q : Packet → Prop) (R : Panel → Panel) (g : Panel → Packet → Panel)
    (ps : List Packet) (h : ∀ p ∈ ps, ∃ qs, f p = .ok qs ∧ (∀ q ∈ qs, Q q) ∧ ∀ s, qs.foldl turned (R s) = R (g s p)) :
    ∃ qs, translated f ps = .ok qs ∧ (∀ q ∈ qs, Q q) ∧ ∀ s, qs.foldl turned (R s) = R (ps.foldl g s) := by
  induction ps with
  | nil => exact ⟨[], rfl, by simp, fun s => rfl⟩
  | cons p ps ih =>
    obtain ⟨q1, e1, w1, f1⟩ := h p (by simp)
    obtain ⟨q2, e2, w2, f2⟩ := ih fun p hp => h p (by simp [hp])
    unfold translated at e2 ⊢
    rw [List.mapM_cons, e1, ok_bind]
    cases hm : ps.mapM f with
    | error e => rw [hm] at e2; cases e2
    | ok l =>
      rw [hm] at e2
      have e2 : l.flatten = q2 := Except.ok.inj e2
      refine ⟨q1 ++ q2, by rw [← e2]; rfl, fun q hq => (List.mem_append.1 hq).elim (w1 q) (w2 q), fun s => ?_⟩
      rw [List.foldl_append, f1, f2]
      rfl

theorem foldl_filter_turned (ps : List Packet) (f : Packet → Bool) (s : Panel) :
    ps.foldl (fun s p => if f p then s else turned s p) s = (ps.filter fun p => !f p).foldl turned s := by
  induction ps generalizing s with
  | nil => rfl
  | cons p ps ih =>
    rw [List.foldl_cons, List.filter_cons]
    cases f p
    · exact ih _
    · exact ih _

/-- A packet that sets something else. -/
theorem turned_other {s : Panel} {p : Packet} {g c : Nat} {k : Knob}
    (h : ∀ k' v, knobOf p.type.toNat (p.status.toNat / 16) p.byte3.toNat p.byte4.toNat p.w1.toNat = some (k', v) → k' ≠ k) :
    turned s p g c k = s g c k := by
  unfold turned
  generalize knobOf p.type.toNat (p.status.toNat / 16) p.byte3.toNat p.byte4.toNat p.w1.toNat = x at h
  rcases x with _ | ⟨k', v⟩
  · rfl
  · unfold Panel.turn
    dsimp only
    rw [if_neg fun e => h k' v rfl e.2.2.symm]

theorem turned_congr {s t : Panel} {g c : Nat} {k : Knob} (h : s g c k = t g c k) (p : Packet) : turned s p g c k = turned t p g c k := by
  unfold turned
  rcases knobOf p.type.toNat (p.status.toNat / 16) p.byte3.toNat p.byte4.toNat p.w1.toNat with _ | ⟨k', v⟩
  · exact h
  · unfold Panel.turn; dsimp only; split
    · rfl
    · exact h

/-- Leaving out packets that set something else. -/
theorem filter_same (ps : List Packet) (f : Packet → Bool) (g c : Nat) (k : Knob)
    (h : ∀ p ∈ ps, f p = true → ∀ k' v, knobOf p.type.toNat (p.status.toNat / 16) p.byte3.toNat p.byte4.toNat p.w1.toNat = some (k', v) → k' ≠ k)
    (s t : Panel) (hst : s g c k = t g c k) : (ps.filter fun p => !f p).foldl turned s g c k = ps.foldl turned t g c k := by
  induction ps generalizing s t with
  | nil => exact hst
  | cons p ps ih =>
    rw [List.foldl_cons, List.filter_cons]
    have ih := ih fun p hp => h p (by simp [hp])
    cases hf : f p
    · exact ih _ _ (turned_congr hst p)
    · exact ih _ _ (hst.trans (turned_other (h p (by simp) hf)).symm)

theorem sequence_knob {t : Byte} {p : Packet} (h : sequenceControl t p = true) {k : Knob} {v : Nat}
    (e : knobOf p.type.toNat (p.status.toNat / 16) p.byte3.toNat p.byte4.toNat p.w1.toNat = some (k, v)) : k.kept = false := by
  unfold sequenceControl at h
  simp only [Bool.and_eq_true, beq_iff_eq] at h
  obtain ⟨⟨-, h1⟩, h2⟩ := h
  rw [h1] at e
  unfold knobOf at e
  have : k = .controller (p.byte3.toNat % 128) := by
    split at e
    · exact (Prod.mk.inj (Option.some.inj e)).1.symm
    · split at e
      · exact (Prod.mk.inj (Option.some.inj e)).1.symm
      · cases e
  rw [this]
  show (!sequenceControllers.contains (p.byte3.toNat % 128)) = false
  rw [h2]
  rfl

theorem bank_knob {p : Packet} (h : programWithBank p = true) {k : Knob} {v : Nat}
    (e : knobOf p.type.toNat (p.status.toNat / 16) p.byte3.toNat p.byte4.toNat p.w1.toNat = some (k, v)) : k = .program := by
  unfold programWithBank at h
  simp only [Bool.and_eq_true, beq_iff_eq] at h
  obtain ⟨⟨h1, h2⟩, -⟩ := h
  rw [h1, h2] at e
  exact (Prod.mk.inj (Option.some.inj e)).1.symm

/-! ## The property -/

/-- C109: an instrument which remembers what it is set to, with the predicates and getters for messages of either protocol, can be
given packets of any kind: nothing it calls fails, if the MIDI 1 channel voice messages have 7 bit data. -/
theorem C109_any_packets (s : Panel) (ps : List Packet) (h : ∀ p ∈ ps, p.type = 2 → p.byte3 < 128 ∧ p.byte4 < 128) :
    ∃ s', panelAfter s ps = .ok s' := ⟨_, panelAfter_eq s ps h⟩

/-- C109: a stream of any packets is translated to MIDI 2: no call fails, and the instrument is set exactly as by the stream without the
MIDI 1 control changes that are part of sequences. -/
theorem C109_to_midi2 (s : Panel) (ps : List Packet) (h : ∀ p ∈ ps, p.type = 2 → p.byte3 < 128 ∧ p.byte4 < 128) :
    ∃ qs, translated upgrade ps = .ok qs ∧ panelAfter s qs = panelAfter s (ps.filter fun p => !sequenceControl 2 p) := by
  obtain ⟨qs, e, w, f⟩ := panel_translated (fun q => q.type ≠ 2) id (fun s p => if sequenceControl 2 p then s else turned s p) ps fun p hp => by
    obtain ⟨qs, e, w, -, f⟩ := panel_upgrade p (h p hp)
    exact ⟨qs, e, w, f⟩
  refine ⟨qs, e, ?_⟩
  rw [panelAfter_eq _ _ fun q hq ht => absurd ht (w q hq), panelAfter_eq _ _ fun q hq => h q (List.mem_filter.1 hq).1]
  exact congrArg _ ((f s).trans (foldl_filter_turned _ _ _))

/-- C109: behind the translation to MIDI 2 the instrument is set to the same values, to the last bit, in every channel: pressures, pitch
bend, program and every controller that is not part of a sequence. -/
theorem C109_same_settings (s : Panel) (ps : List Packet) (h : ∀ p ∈ ps, p.type = 2 → p.byte3 < 128 ∧ p.byte4 < 128) :
    ∃ qs s1 s2, translated upgrade ps = .ok qs ∧ panelAfter s ps = .ok s1 ∧ panelAfter s qs = .ok s2 ∧
      ∀ g c k, k.kept = true → s2 g c k = s1 g c k := by
  obtain ⟨qs, e, f⟩ := C109_to_midi2 s ps h
  refine ⟨qs, _, _, e, panelAfter_eq s ps h, f.trans (panelAfter_eq _ _ fun q hq => h q (List.mem_filter.1 hq).1), fun g c k hk => ?_⟩
  refine filter_same ps _ g c k (fun p _ hs k' v e' ek => ?_) s s rfl
  rw [← ek, sequence_knob hs e'] at hk
  cases hk

/-- C109: a stream of any packets is translated to MIDI 1: no call fails, and the instrument is set exactly as by the stream without the
MIDI 2 control changes that are part of sequences and the program changes with bank, with all values as they remain in MIDI 1. -/
theorem C109_to_midi1 (s : Panel) (ps : List Packet) (h : ∀ p ∈ ps, p.type = 2 → p.byte3 < 128 ∧ p.byte4 < 128) :
    ∃ qs, translated downgrade ps = .ok qs ∧ (∀ q ∈ qs, q.type = 2 → q.byte3 < 128 ∧ q.byte4 < 128) ∧ panelAfter s.coarse qs =
      (panelAfter s (ps.filter fun p => !(sequenceControl 4 p || programWithBank p))).map Panel.coarse := by
  obtain ⟨qs, e, w, f⟩ := panel_translated (fun q => q.type = 2 → q.byte3 < 128 ∧ q.byte4 < 128) Panel.coarse
    (fun s p => if sequenceControl 4 p || programWithBank p then s else turned s p) ps fun p hp => by
    obtain ⟨qs, e, -, w, f⟩ := panel_downgrade p (h p hp)
    exact ⟨qs, e, w, f⟩
  refine ⟨qs, e, w, ?_⟩
  rw [panelAfter_eq _ _ w, panelAfter_eq _ _ fun q hq => h q (List.mem_filter.1 hq).1, f, foldl_filter_turned]
  rfl

/-- C109: behind the translation to MIDI 1 the instrument is set to what remains of the values, in every channel: pressures, pitch bend,
every controller that is not part of a sequence, and the program if no program change in the stream has a bank. -/
theorem C109_coarse_settings (s : Panel) (ps : List Packet) (h : ∀ p ∈ ps, p.type = 2 → p.byte3 < 128 ∧ p.byte4 < 128) :
    ∃ qs s1 s2, translated downgrade ps = .ok qs ∧ panelAfter s ps = .ok s1 ∧ panelAfter s.coarse qs = .ok s2 ∧
      ∀ g c k, k.kept = true → (k = .program → ∀ p ∈ ps, programWithBank p = false) → s2 g c k = k.coarse (s1 g c k) := by
  obtain ⟨qs, e, -, f⟩ := C109_to_midi1 s ps h
  rw [panelAfter_eq s (ps.filter _) fun q hq => h q (List.mem_filter.1 hq).1] at f
  refine ⟨qs, _, _, e, panelAfter_eq s ps h, f, fun g c k hk hb => ?_⟩
  refine congrArg k.coarse (filter_same ps _ g c k (fun p hp hs k' v e' ek => ?_) s s rfl)
  rcases Bool.or_eq_true_iff.1 hs with hs | hs
  · rw [← ek, sequence_knob hs e'] at hk
    cases hk
  · rw [hb (ek ▸ bank_knob hs e') p hp] at hs
    cases hs

/-- C109: what remains of a 32 bit value is a value with the same upper 7 bits (for pitch bend 14 bits), of which the same remains; the
smallest value, the middle and the largest remain themselves. -/
theorem C109_remains (k : Knob) (v : Nat) (hv : v < 2 ^ 32) :
    k.coarse v < 2 ^ 32 ∧ k.coarse v / 2 ^ 25 = v / 2 ^ 25 ∧ (k = .bend → k.coarse v / 2 ^ 18 = v / 2 ^ 18) ∧
    k.coarse (k.coarse v) = k.coarse v ∧ k.coarse 0 = 0 ∧ k.coarse (2 ^ 31) = 2 ^ 31 ∧ k.coarse (2 ^ 32 - 1) = 2 ^ 32 - 1 := by
  have a : up7to32 (v / 2 ^ 25) / 2 ^ 25 = v / 2 ^ 25 := up7_upper (by omega)
  have b : up14to32 (v / 2 ^ 18) / 2 ^ 18 = v / 2 ^ 18 := up14_upper (by omega)
  have a' : up7to32 (v / 2 ^ 25) < 2 ^ 32 := by unfold up7to32; split <;> omega
  have b' : up14to32 (v / 2 ^ 18) < 2 ^ 32 := by unfold up14to32; split <;> omega
  cases k <;> unfold Knob.coarse <;> dsimp only
  · exact ⟨a', a, by simp, by rw [a], by decide, by decide, by decide⟩
  · exact ⟨a', a, by simp, by rw [a], by decide, by decide, by decide⟩
  · exact ⟨hv, rfl, by simp, rfl, rfl, rfl, rfl⟩
  · exact ⟨a', a, by simp, by rw [a], by decide, by decide, by decide⟩
  · exact ⟨b', by omega, fun _ => b, by rw [b], by decide, by decide, by decide⟩

/-- C109: translated to MIDI 2 and back to MIDI 1, a stream of packets none of which is a MIDI 2 channel voice message sets the instrument
to exactly the same values, if the values before are ones of MIDI 1: in every channel, other than controllers that are part of sequences. -/
theorem C109_there_and_back (s : Panel) (ps : List Packet) (h : ∀ p ∈ ps, p.type = 2 → p.byte3 < 128 ∧ p.byte4 < 128)
    (h4 : ∀ p ∈ ps, p.type ≠ 4) :
    ∃ qs rs s1 s2, translated upgrade ps = .ok qs ∧ translated downgrade qs = .ok rs ∧
      panelAfter s.coarse ps = .ok s1 ∧ panelAfter s.coarse rs = .ok s2 ∧ ∀ g c k, k.kept = true → s2 g c k = s1 g c k := by
  obtain ⟨qs, e, w, f⟩ := panel_translated (fun q => q.type ≠ 2 ∧ programWithBank q = false) id
      (fun s p => if sequenceControl 2 p then s else turned s p) ps fun p hp => by
    obtain ⟨qs, e, w, b, f⟩ := panel_upgrade p (h p hp)
    refine ⟨qs, e, fun q hq => ⟨w q hq, ?_⟩, f⟩
    rw [← Bool.not_eq_true]
    intro hb
    have := b q hq hb
    unfold programWithBank at this
    rw [beq_eq_false_iff_ne.2 (h4 p hp)] at this
    cases this
  have w7 : ∀ q ∈ qs, q.type = 2 → q.byte3 < 128 ∧ q.byte4 < 128 := fun q hq ht => absurd ht (w q hq).1
  obtain ⟨rs, t1, t2, e2, f1, f2, f3⟩ := C109_coarse_settings s qs w7
  refine ⟨qs, rs, _, t2, e, e2, panelAfter_eq _ _ h, f2, fun g c k hk => ?_⟩
  rw [f3 g c k hk fun _ q hq => (w q hq).2]
  have e1 : t1 = qs.foldl turned s := Except.ok.inj (f1.symm.trans (panelAfter_eq _ _ w7))
  have e2 : qs.foldl turned s = _ := (f s).trans (foldl_filter_turned _ _ _)
  have e3 : ps.foldl turned s.coarse = (ps.foldl turned s).coarse := by
    clear e f f1 f2 f3 e1 e2 t1
    induction ps generalizing s with
    | nil => rfl
    | cons p ps ih =>
      rw [List.foldl_cons, turned_coarse s (h p (by simp)) (h4 p (by simp))]
      exact ih _ (fun p hp => h p (by simp [hp])) fun p hp => h4 p (by simp [hp])
  rw [e3, e1, e2]
  refine congrArg k.coarse (filter_same ps _ g c k (fun p _ hs k' v e' ek => ?_) s s rfl)
  rw [← ek, sequence_knob hs e'] at hk
  cases hk

/-- C109: MIDI 2 channel voice messages of one group are translated to MIDI 1 and sent over a MIDI 1 cable, to a parser with any history:
the packets it delivers set the instrument to what remains of the values. -/
theorem C109_over_cable (p : Parser) (hp : Reached p) (hon : p.invokeCallbacks = true) (s : Panel) (ps : List Packet)
    (ht : ∀ q ∈ ps, q.type = 4) (hg : ∀ q ∈ ps, q.group = p.group) :
    ∃ qs bss p' s1 s2, translated downgrade ps = .ok qs ∧ qs.mapM toMidi1ByteStream = .ok bss ∧
      p.feedAll bss.flatten = .ok (p', qs.map .packet) ∧ panelAfter s ps = .ok s1 ∧ panelAfter s.coarse qs = .ok s2 ∧
      ∀ g c k, k.kept = true → (k = .program → ∀ p ∈ ps, programWithBank p = false) → s2 g c k = k.coarse (s1 g c k) := by
  obtain ⟨qs, s1, s2, e, f1, f2, f3⟩ := C109_coarse_settings s ps fun q hq h2 => by rw [ht q hq] at h2; cases h2
  have eq := downgrade_filterMap ps ht qs e
  obtain ⟨bss, p', b1, b2⟩ := C57_midi2_over_cable p hp hon ps hg
  rw [← eq] at b1 b2
  exact ⟨qs, bss, p', s1, s2, e, b1, b2, f1, f2, f3⟩

/-- C109: the bank is lost. A MIDI 1 instrument is set to bank 3 and program 5; behind a translation to MIDI 2 it is set to program 5
of the bank it had. A MIDI 2 program change with bank 3 and program 5 is lost as a whole behind a translation to MIDI 1: neither the
bank nor the program change. -/
theorem C109_bank_lost : ∃ ps qs ps' qs', translated upgrade ps = .ok qs ∧ translated downgrade ps' = .ok qs' ∧
    (panelAfter (fun _ _ _ => 0) ps).map (fun s => (s 0 0 (.controller 32) / 2 ^ 25, s 0 0 .program)) = .ok (3, 5) ∧
    (panelAfter (fun _ _ _ => 0) qs).map (fun s => (s 0 0 (.controller 32) / 2 ^ 25, s 0 0 .program)) = .ok (0, 5) ∧
    (panelAfter (fun _ _ _ => 0) ps').map (fun s => s 0 0 .program) = .ok 5 ∧
    (panelAfter (fun _ _ _ => 0) qs').map (fun s => (s 0 0 (.controller 32), s 0 0 .program)) = .ok (0, 0) :=
  ⟨[⟨0x20B02003, 0, 0, 0⟩, ⟨0x20C00500, 0, 0, 0⟩], [⟨0x40C00000, 0x05000000, 0, 0⟩], [⟨0x40C00001, 0x05000003, 0, 0⟩], [],
    by decide, by decide, by decide, by decide, by decide, by decide⟩

/-- C109 is about streams like this one: volume 100 in MIDI 1, pitch bend and pan in MIDI 2, a program change, pressure of a note, and
a text. -/
example : ∀ ps, ps = [⟨0x20B00764, 0, 0, 0⟩, ⟨0x40E00000, 0x81234567, 0, 0⟩, ⟨0x40B00A00, 0x12345678, 0, 0⟩, ⟨0x20C10900, 0, 0, 0⟩,
      ⟨0x20A03C7F, 0, 0, 0⟩, ⟨0xD0100001, 0x41424344, 0, 0⟩] →
    (∀ p ∈ ps, p.type = 2 → p.byte3 < 128 ∧ p.byte4 < 128) ∧ (∀ p ∈ ps, programWithBank p = false) ∧
    (panelAfter (fun _ _ _ => 0) ps).map (fun s => (s 0 0 (.controller 7), s 0 0 .bend, s 0 0 (.controller 10), s 0 1 .program,
      s 0 0 (.pressureOf 60))) = .ok (0xC9249249, 0x81234567, 0x12345678, 9, 0xFFFFFFFF) ∧
    translated downgrade ps = .ok [⟨0x20B00764, 0, 0, 0⟩, ⟨0x20E04840, 0, 0, 0⟩, ⟨0x20B00A09, 0, 0, 0⟩, ⟨0x20C10900, 0, 0, 0⟩,
      ⟨0x20A03C7F, 0, 0, 0⟩, ⟨0xD0100001, 0x41424344, 0, 0⟩] ∧
    (translated downgrade ps >>= panelAfter (fun _ _ _ => 0)).map (fun s => (s 0 0 (.controller 7), s 0 0 .bend, s 0 0 (.controller 10),
      s 0 1 .program, s 0 0 (.pressureOf 60))) = .ok (0xC9249249, 0x81200900, 0x12000000, 9, 0xFFFFFFFF) := by
  rintro _ rfl
  refine ⟨by decide, by decide, by decide, by decide, by decide⟩

end Midi
