import Verif.Props.Translation
import Verif.Props.TranslationChain
import Verif.Props.TranslationOrder
import Verif.Spec.Sounding

/-!
# C105: the notes that sound
-/

namespace Midi
open Spec Packet

/-! ## One packet -/

/-- The notes after a packet. -/
def heard (s : Sounding) (p : Packet) : Sounding :=
  if isNoteOn p then s.set p.group (p.byte2 &&& 0x0F) (noteNr p) true
  else if isNoteOff p then s.set p.group (p.byte2 &&& 0x0F) (noteNr p) false
  else s

theorem sounding_receive (s : Sounding) (p : Packet) : s.receive p = .ok (heard s p) := by
  have hc : p.isChannelVoice = true → p.channel = .ok (p.byte2 &&& 0x0F) := by
    intro h
    unfold Packet.channel
    rw [show p.hasChannel = true by
      unfold Packet.hasChannel; unfold Packet.isChannelVoice at h; rw [h]; rfl]
    rfl
  obtain ⟨-, h1, h2⟩ := C11_exclusive p
  unfold Sounding.receive heard
  split
  · next h => rw [hc (h1 h)]; rfl
  · split
    · next h => rw [hc (h2 h)]; rfl
    · rfl

theorem soundingAfter_eq (s : Sounding) (ps : List Packet) : soundingAfter s ps = .ok (ps.foldl heard s) := by
  induction ps generalizing s with
  | nil => rfl
  | cons p ps ih => unfold soundingAfter; rw [sounding_receive, ok_bind, ih]; rfl

theorem heard_same {s : Sounding} {p q : Packet} (h1 : isNoteOn q = isNoteOn p) (h2 : isNoteOff q = isNoteOff p)
    (h3 : isNoteOn p = true ∨ isNoteOff p = true → q.group = p.group ∧ q.byte2 &&& 0x0F = p.byte2 &&& 0x0F ∧ noteNr q = noteNr p) :
    heard s q = heard s p := by
  unfold heard
  rw [h1, h2]
  split
  · next h => obtain ⟨a, b, c⟩ := h3 (.inl h); rw [a, b, c]
  · split
    · next h => obtain ⟨a, b, c⟩ := h3 (.inr h); rw [a, b, c]
    · rfl

theorem heard_nothing {s : Sounding} {p : Packet} (h1 : isNoteOn p = false) (h2 : isNoteOff p = false) : heard s p = s := by
  unfold heard; rw [h1, h2]; rfl

/-- Two packets with the same note. -/
theorem same_fields {p q : Packet} (hg : q.group.toNat = p.group.toNat) (hc : q.status.toNat % 16 = p.status.toNat % 16)
    (hn : q.byte3.toNat % 128 = p.byte3.toNat % 128) :
    q.group = p.group ∧ q.byte2 &&& 0x0F = p.byte2 &&& 0x0F ∧ noteNr q = noteNr p := by
  refine ⟨BitVec.eq_of_toNat_eq hg, BitVec.eq_of_toNat_eq ?_, BitVec.eq_of_toNat_eq ?_⟩
  · rw [BitVec.toNat_and, BitVec.toNat_and]
    exact (Nat.and_two_pow_sub_one_eq_mod _ 4).trans (hc.trans (Nat.and_two_pow_sub_one_eq_mod _ 4).symm)
  · unfold noteNr
    rw [BitVec.toNat_and, BitVec.toNat_and]
    exact (Nat.and_two_pow_sub_one_eq_mod _ 7).trans (hn.trans (Nat.and_two_pow_sub_one_eq_mod _ 7).symm)

theorem bool_same {a b : Bool} {P Q : Prop} (ha : a = true ↔ P) (hb : b = true ↔ Q) (h : P ↔ Q) : a = b :=
  Bool.eq_iff_iff.2 (ha.trans (h.trans hb.symm))

theorem bool_no {a : Bool} {P : Prop} (ha : a = true ↔ P) (h : ¬ P) : a = false := Bool.eq_false_iff.2 fun e => h (ha.1 e)

/-- Translating a packet to MIDI 2. -/
theorem upgrade_ok (p : Packet) (h : p.type = 2 → p.byte3 < 128 ∧ p.byte4 < 128) : ∃ qs, upgrade p = .ok qs ∧
    (∀ q ∈ qs, q.type ≠ 2) ∧ (∀ q ∈ qs, q ≠ p → hasAttribute q = false) ∧ ∀ s, qs.foldl heard s = heard s p := by
  unfold upgrade asMidi1View isMidi1CV
  by_cases ht : p.type = 2
  swap
  · rw [if_neg (by simpa [PacketType.midi1ChannelVoice] using ht)]
    exact ⟨[p], rfl, by simpa using ht, by simp, fun s => rfl⟩
  rw [if_pos (by simp [PacketType.midi1ChannelVoice, ht])]
  rw [show midi1View p = .ok p by unfold midi1View isMidi1CV; rw [ht]; rfl]
  obtain ⟨h3, h4⟩ := h ht
  have c := C09_translation p h3 h4
  rw [BitVec.lt_def] at h3 h4
  have h3 : p.byte3.toNat < 128 := h3
  have h4 : p.byte4.toNat < 128 := h4
  obtain ⟨m1, m2⟩ := C11_meaning p
  have hs := p.status.isLt
  have gl : p.group.toNat < 16 := by have := Packet.group_lt p; rw [BitVec.lt_def] at this; exact this
  have t4 : ∀ q : Packet, q.type.toNat = 4 → q.type = 4 := fun q h => BitVec.eq_of_toNat_eq h
  generalize hm : midi2DataOfMidi1 (p.status.toNat / 16) p.byte3.toNat p.byte4.toNat = m at c
  rcases m with _ | ⟨o, i, d⟩
  · refine ⟨[], by change (asMidi2 p >>= fun o => pure o.toList) = _; rw [show asMidi2 p = .ok none from c]; rfl, by simp, by simp, fun s => ?_⟩
    have hno : p.status.toNat / 16 ≠ 8 ∧ p.status.toNat / 16 ≠ 9 := by
      constructor <;> (intro e; rw [e] at hm; unfold midi2DataOfMidi1 at hm; simp at hm)
      split at hm <;> cases hm
    exact (heard_nothing (bool_no m1 (by simp [hno])) (bool_no m2 (by simp [hno]))).symm
  · obtain ⟨q, e, l⟩ := c
    have ho : o < 16 ∧ i < 128 := by
      unfold midi2DataOfMidi1 at hm
      split at hm <;> (try split at hm) <;> simp at hm <;> omega
    obtain ⟨lw, -⟩ := l
    have q1 := toNat_type q
    have q2 := toNat_group q
    have q3 := toNat_status q
    have q4 := toNat_byte3 q
    have q5 := toNat_byte4 q
    rw [lw] at q1 q2 q3 q4 q5
    have e1 : q.type = 4 := t4 q (by omega)
    have e2 : q.group.toNat = p.group.toNat := by omega
    have e3 : q.status.toNat / 16 = o := by omega
    have e3' : q.status.toNat % 16 = p.status.toNat % 16 := by omega
    have e4 : q.byte3.toNat = i := by omega
    have e5 : q.byte4.toNat = 0 := by omega
    refine ⟨[q], by change (asMidi2 p >>= fun o => pure o.toList) = _; rw [show asMidi2 p = .ok (some q) from e]; rfl, by simp [e1], ?_, fun s => ?_⟩
    · intro x hx _
      rw [List.mem_singleton.1 hx]
      unfold hasAttribute
      simp [e5]
    obtain ⟨n1, n2⟩ := C11_meaning q
    rw [e3, e1] at n1 n2
    have b40 : p.byte4 = 0 ↔ p.byte4.toNat = 0 := ⟨fun h => by rw [h]; rfl, fun h => BitVec.eq_of_toNat_eq h⟩
    rw [ht, ne_eq, b40] at m1
    rw [ht, b40] at m2
    have key : (o = 9 ↔ p.status.toNat / 16 = 9 ∧ p.byte4.toNat ≠ 0) ∧
        (o = 8 ↔ p.status.toNat / 16 = 8 ∨ p.status.toNat / 16 = 9 ∧ p.byte4.toNat = 0) ∧
        (o = 8 ∨ o = 9 → i = p.byte3.toNat) := by
      unfold midi2DataOfMidi1 at hm
      split at hm <;> (try split at hm) <;> simp at hm <;> omega
    refine heard_same (bool_same n1 m1 ?_) (bool_same n2 m2 ?_) fun hn => same_fields e2 e3' ?_
    · simp [key.1]
    · simp [key.2.1]
    · rw [e4, key.2.2 ?_]
      rw [m1, m2] at hn
      rw [key.1, key.2.1]
      simp at hn
      omega

/-- Translating a packet to MIDI 1. -/
theorem downgrade_ok (p : Packet) : ∃ qs, downgrade p = .ok qs ∧ (∀ q ∈ qs, q.type ≠ 4) ∧
    ∀ s, qs.foldl heard s = if hasAttribute p then s else heard s p := by
  unfold downgrade asMidi2View isMidi2CV
  by_cases ht : p.type = 4
  swap
  · rw [if_neg (by simpa [PacketType.midi2ChannelVoice] using ht)]
    refine ⟨[p], rfl, by simpa using ht, fun s => ?_⟩
    rw [show hasAttribute p = false by unfold hasAttribute; rw [beq_eq_false_iff_ne.2 ht]; rfl]
    rfl
  rw [if_pos (by simp [PacketType.midi2ChannelVoice, ht])]
  rw [show midi2View p = .ok p by unfold midi2View; rw [ht]; rfl]
  refine ⟨(asMidi1 p).toList, rfl, ?_⟩
  have c := C10_translation p
  obtain ⟨m1, m2⟩ := C11_meaning p
  have hs := p.status.isLt
  have hw := p.w1.isLt
  have gl : p.group.toNat < 16 := by have := Packet.group_lt p; rw [BitVec.lt_def] at this; exact this
  rw [ht] at m1 m2
  generalize hm : midi1DataOfMidi2 (p.status.toNat / 16) (p.byte3.toNat % 128) (p.byte4.toNat % 128) p.w1.toNat = m at c
  rcases m with _ | ⟨d1, d2⟩
  · rw [show asMidi1 p = none from c]
    refine ⟨by simp, fun s => ?_⟩
    split
    · rfl
    · next ha =>
      have hno : p.status.toNat / 16 ≠ 8 ∧ p.status.toNat / 16 ≠ 9 := by
        unfold hasAttribute at ha
        rw [ht] at ha
        constructor <;>
        · intro e
          rw [e] at ha hm
          unfold midi1DataOfMidi2 at hm
          simp at ha hm
          exact hm ha
      exact (heard_nothing (bool_no m1 (by simp [hno])) (bool_no m2 (by simp [hno]))).symm
  · obtain ⟨r, e, lw, -⟩ := c
    rw [e]
    have hd : d1 < 128 ∧ d2 < 128 ∧ (p.status.toNat / 16 = 9 → d2 ≠ 0) ∧
        (p.status.toNat / 16 = 8 ∨ p.status.toNat / 16 = 9 → d1 = p.byte3.toNat % 128 ∧ p.byte4.toNat % 128 = 0) := by
      generalize p.status.toNat / 16 = o at hm
      unfold midi1DataOfMidi2 at hm
      split at hm <;> (try split at hm) <;> simp at hm <;> omega
    have q1 := toNat_type r
    have q2 := toNat_group r
    have q3 := toNat_status r
    have q4 := toNat_byte3 r
    have q5 := toNat_byte4 r
    rw [lw] at q1 q2 q3 q4 q5
    have e1 : r.type = 2 := BitVec.eq_of_toNat_eq (show r.type.toNat = 2 by omega)
    have e2 : r.group.toNat = p.group.toNat := by omega
    have e3 : r.status.toNat = p.status.toNat := by omega
    have e4 : r.byte3.toNat = d1 := by omega
    have e5 : r.byte4.toNat = d2 := by omega
    refine ⟨by simp [e1], fun s => ?_⟩
    rw [show hasAttribute p = false by
      unfold hasAttribute
      by_cases hn : p.status.toNat / 16 = 8 ∨ p.status.toNat / 16 = 9
      · simp [(hd.2.2.2 hn).2]
      · rw [not_or] at hn; simp [hn]]
    obtain ⟨n1, n2⟩ := C11_meaning r
    rw [e3, e1] at n1 n2
    have b40 : r.byte4 = 0 ↔ d2 = 0 := ⟨fun h => by rw [← e5, h]; rfl, fun h => BitVec.eq_of_toNat_eq (e5.trans h)⟩
    rw [ne_eq, b40] at n1
    rw [b40] at n2
    refine heard_same (bool_same n1 m1 ?_) (bool_same n2 m2 ?_) fun hn => same_fields e2 (by rw [e3]) ?_
    · have := hd.2.2.1
      simp
      exact this
    · have := hd.2.2.1
      simp
      exact fun a b => absurd b (this a)
    · rw [m1, m2] at hn
      simp at hn
      have := hd.2.2.2 (by omega)
      omega

theorem translated_ok {f : Packet → Except Fault (List Packet)} (g : Sounding → Packet → Sounding) (ps : List Packet)
    (h : ∀ p ∈ ps, ∃ qs, f p = .ok qs ∧ ∀ s, qs.foldl heard s = g s p) :
    ∃ qs, translated f ps = .ok qs ∧ ∀ s, qs.foldl heard s = ps.foldl g s := by
  induction ps with
  | nil => exact ⟨[], rfl, fun s => rfl⟩
  | cons p ps ih =>
    obtain ⟨q1, e1, f1⟩ := h p (by simp)
    obtain ⟨q2, e2, f2⟩ := ih fun p hp => h p (by simp [hp])
    unfold translated at e2 ⊢
    rw [List.mapM_cons, e1, ok_bind]
    cases hm : ps.mapM f with
    | error e => rw [hm] at e2; cases e2
    | ok l =>
      rw [hm] at e2
      have e2 : l.flatten = q2 := Except.ok.inj e2
      refine ⟨q1 ++ q2, by rw [← e2]; rfl, fun s => ?_⟩
      rw [List.foldl_append, f1, f2]
      rfl

theorem foldl_filter_heard (ps : List Packet) (f : Packet → Bool) (s : Sounding) :
    ps.foldl (fun s p => if f p then s else heard s p) s = (ps.filter fun p => !f p).foldl heard s := by
  induction ps generalizing s with
  | nil => rfl
  | cons p ps ih =>
    rw [List.foldl_cons, List.filter_cons]
    cases f p
    · exact ih _
    · exact ih _

/-! ## The property -/

/-- C105: an instrument which remembers the notes with `is_note_on_message`, `is_note_off_message`, `group`, `channel` and
`get_note_nr` can be given every packet, of any kind: nothing it calls fails. -/
theorem C105_any_packets (s : Sounding) (ps : List Packet) : ∃ s', soundingAfter s ps = .ok s' := ⟨_, soundingAfter_eq s ps⟩

/-- C105: a stream of any packets, whose MIDI 1 channel voice messages have 7 bit data, is translated to MIDI 2: no call
fails, and the same notes sound. -/
theorem C105_to_midi2 (s : Sounding) (ps : List Packet) (h : ∀ p ∈ ps, p.type = 2 → p.byte3 < 128 ∧ p.byte4 < 128) :
    ∃ qs, translated upgrade ps = .ok qs ∧ soundingAfter s qs = soundingAfter s ps := by
  obtain ⟨qs, e, f⟩ := translated_ok heard ps fun p hp => by
    obtain ⟨qs, e, -, -, f⟩ := upgrade_ok p (h p hp)
    exact ⟨qs, e, f⟩
  exact ⟨qs, e, by rw [soundingAfter_eq, soundingAfter_eq, f]⟩

/-- C105: a stream of any packets is translated to MIDI 1: no call fails, and the notes that sound are exactly those of the
stream without the note messages that have an attribute. -/
theorem C105_to_midi1 (s : Sounding) (ps : List Packet) :
    ∃ qs, translated downgrade ps = .ok qs ∧ soundingAfter s qs = soundingAfter s (ps.filter fun p => !hasAttribute p) := by
  obtain ⟨qs, e, f⟩ := translated_ok (fun s p => if hasAttribute p then s else heard s p) ps fun p _ => by
    obtain ⟨qs, e, -, f⟩ := downgrade_ok p
    exact ⟨qs, e, f⟩
  exact ⟨qs, e, by rw [soundingAfter_eq, soundingAfter_eq, f, foldl_filter_heard]⟩

/-- C105: without attributes the same notes sound. -/
theorem C105_same_notes (s : Sounding) (ps : List Packet) (h : ∀ p ∈ ps, hasAttribute p = false) :
    ∃ qs, translated downgrade ps = .ok qs ∧ soundingAfter s qs = soundingAfter s ps := by
  obtain ⟨qs, e, f⟩ := C105_to_midi1 s ps
  refine ⟨qs, e, ?_⟩
  rw [f, List.filter_eq_self.2 fun p hp => by rw [h p hp]; rfl]

theorem heard_mono {s t : Sounding} (h : ∀ g c n, s g c n = true → t g c n = true) (p : Packet) :
    ∀ g c n, heard s p g c n = true → heard t p g c n = true := by
  intro g c n
  unfold heard Sounding.set
  split
  · dsimp only; split
    · exact id
    · exact h g c n
  · split
    · dsimp only; split
      · exact id
      · exact h g c n
    · exact h g c n

/-- C105: if no Note Off has an attribute, no note hangs: every note that sounds behind the translation to MIDI 1 sounds before
it. -/
theorem C105_no_hanging_note (s : Sounding) (ps : List Packet) (h : ∀ p ∈ ps, hasAttribute p = true → isNoteOn p = true) :
    ∃ qs s1 s2, translated downgrade ps = .ok qs ∧ soundingAfter s ps = .ok s1 ∧ soundingAfter s qs = .ok s2 ∧
      ∀ g c n, s2 g c n = true → s1 g c n = true := by
  obtain ⟨qs, e, f⟩ := C105_to_midi1 s ps
  refine ⟨qs, _, _, e, soundingAfter_eq s ps, f.trans (soundingAfter_eq s _), ?_⟩
  rw [← foldl_filter_heard]
  have key : ∀ (ps : List Packet) (s t : Sounding), (∀ p ∈ ps, hasAttribute p = true → isNoteOn p = true) →
      (∀ g c n, s g c n = true → t g c n = true) →
      ∀ g c n, ps.foldl (fun s p => if hasAttribute p then s else heard s p) s g c n = true → ps.foldl heard t g c n = true := by
    intro ps
    induction ps with
    | nil => intro s t _ hst; exact hst
    | cons p ps ih =>
      intro s t h hst
      refine ih _ _ (fun p hp => h p (by simp [hp])) ?_
      dsimp only
      split
      · next ha =>
        have hn := h p (by simp) ha
        intro g c n hs
        unfold heard Sounding.set
        rw [if_pos hn]
        split
        · rfl
        · exact hst g c n hs
      · exact heard_mono hst p
  exact key ps s s h fun _ _ _ => id

/-- C105: with a Note Off that has an attribute a note hangs: Note On (without attribute) and Note Off (attribute 1) of note 60;
behind the translation the note still sounds. -/
theorem C105_hanging_note : ∃ ps qs s1 s2, translated downgrade ps = .ok qs ∧ soundingAfter (fun _ _ _ => false) ps = .ok s1 ∧
    soundingAfter (fun _ _ _ => false) qs = .ok s2 ∧ (∀ g c n, s1 g c n = false) ∧ s2 0 0 60 = true := by
  refine ⟨[⟨0x40903C00, 0x80000000, 0, 0⟩, ⟨0x40803C01, 0, 0, 0⟩], [⟨0x20903C40, 0, 0, 0⟩], _, _, by decide, soundingAfter_eq _ _,
    soundingAfter_eq _ _, ?_, by decide⟩
  intro g c n
  have e : [⟨0x40903C00, 0x80000000, 0, 0⟩, ⟨0x40803C01, 0, 0, 0⟩].foldl heard (fun _ _ _ => false) =
      ((Sounding.set (fun _ _ _ => false) 0 0 60 true).set 0 0 60 false) := rfl
  rw [e]
  unfold Sounding.set
  dsimp only
  split <;> simp_all

/-- C105: translated to MIDI 2 and back to MIDI 1, the same notes sound: for packets of any kinds, if those that are MIDI 1 channel
voice messages have 7 bit data and none is a note with attribute to begin with. -/
theorem C105_there_and_back (s : Sounding) (ps : List Packet) (h : ∀ p ∈ ps, p.type = 2 → p.byte3 < 128 ∧ p.byte4 < 128)
    (ha : ∀ p ∈ ps, hasAttribute p = false) :
    ∃ qs rs, translated upgrade ps = .ok qs ∧ translated downgrade qs = .ok rs ∧ soundingAfter s rs = soundingAfter s ps := by
  have key : ∃ qs, translated upgrade ps = .ok qs ∧ ∀ q ∈ qs, hasAttribute q = false := by
    clear s
    induction ps with
    | nil => exact ⟨[], rfl, by simp⟩
    | cons p ps ih =>
      obtain ⟨q1, e1, -, a1, -⟩ := upgrade_ok p (h p (by simp))
      obtain ⟨q2, e2, a2⟩ := ih (fun p hp => h p (by simp [hp])) (fun p hp => ha p (by simp [hp]))
      unfold translated at e2 ⊢
      rw [List.mapM_cons, e1, ok_bind]
      cases hm : ps.mapM upgrade with
      | error e => rw [hm] at e2; cases e2
      | ok l =>
        rw [hm] at e2
        have e2 : l.flatten = q2 := Except.ok.inj e2
        refine ⟨q1 ++ q2, by rw [← e2]; rfl, fun q hq => ?_⟩
        rcases List.mem_append.1 hq with hq | hq
        · by_cases e : q = p
          · rw [e]; exact ha p (by simp)
          · exact a1 q hq e
        · exact a2 q hq
  obtain ⟨qs, e1, a⟩ := key
  obtain ⟨qs', e1', f1⟩ := C105_to_midi2 s ps h
  obtain rfl : qs = qs' := Except.ok.inj (e1.symm.trans e1')
  obtain ⟨rs, e2, f2⟩ := C105_same_notes s qs a
  exact ⟨qs, rs, e1, e2, f2.trans f1⟩

theorem downgrade_filterMap (ps : List Packet) (ht : ∀ q ∈ ps, q.type = 4) (qs : List Packet) (e : translated downgrade ps = .ok qs) :
    qs = ps.filterMap asMidi1 := by
  induction ps generalizing qs with
  | nil => exact (Except.ok.inj e).symm
  | cons q ps ih =>
    have e1 : downgrade q = .ok (asMidi1 q).toList := by
      have := ht q (by simp)
      unfold downgrade asMidi2View isMidi2CV
      rw [if_pos (by simp [PacketType.midi2ChannelVoice, this]), show midi2View q = .ok q by unfold midi2View; rw [this]; rfl]
      rfl
    unfold translated at e
    rw [List.mapM_cons, e1, ok_bind] at e
    cases hm : ps.mapM downgrade with
    | error e' => rw [hm] at e; cases e
    | ok l =>
      rw [hm] at e
      have e : (asMidi1 q).toList ++ l.flatten = qs := Except.ok.inj e
      have := ih (fun q hq => ht q (by simp [hq])) l.flatten (by unfold translated; rw [hm]; rfl)
      rw [← e, this, List.filterMap_cons]
      cases asMidi1 q <;> rfl

/-- C105: MIDI 2 channel voice messages of one group without attributes are translated to MIDI 1 and sent over a MIDI 1 cable, to a
parser with any history: the packets it delivers let the same notes sound. -/
theorem C105_over_cable (p : Parser) (hp : Reached p) (hon : p.invokeCallbacks = true) (s : Sounding) (ps : List Packet)
    (ht : ∀ q ∈ ps, q.type = 4) (hg : ∀ q ∈ ps, q.group = p.group) (ha : ∀ q ∈ ps, hasAttribute q = false) :
    ∃ qs bss p', translated downgrade ps = .ok qs ∧ qs.mapM toMidi1ByteStream = .ok bss ∧
      p.feedAll bss.flatten = .ok (p', qs.map .packet) ∧ soundingAfter s qs = soundingAfter s ps := by
  obtain ⟨qs, e, f⟩ := C105_same_notes s ps ha
  have eq := downgrade_filterMap ps ht qs e
  obtain ⟨bss, p', b1, b2⟩ := C57_midi2_over_cable p hp hon ps hg
  rw [← eq] at b1 b2
  exact ⟨qs, bss, p', e, b1, b2, f⟩

/-- C105 is about streams like this one: a MIDI 1 note on (note 60), a MIDI 2 note on (note 64, group 1, with attribute 3), a
MIDI 1 note on with velocity 0 (note 60) and a text; note 64 sounds in the end, and behind a translation to MIDI 1 it does not. -/
example : ∀ ps, ps = [⟨0x20903C40, 0, 0, 0⟩, ⟨0x41904003, 0x80001234, 0, 0⟩, ⟨0x20903C00, 0, 0, 0⟩, ⟨0xD0100001, 0x41424344, 0, 0⟩] →
    (∀ p ∈ ps, p.type = 2 → p.byte3 < 128 ∧ p.byte4 < 128) ∧ (∀ p ∈ ps, hasAttribute p = true → isNoteOn p = true) ∧
    (soundingAfter (fun _ _ _ => false) ps).map (fun s => (s 0 0 60, s 1 0 64)) = .ok (false, true) ∧
    translated upgrade ps = .ok [⟨0x40903C00, 0x80000000, 0, 0⟩, ⟨0x41904003, 0x80001234, 0, 0⟩, ⟨0x40803C00, 0x80000000, 0, 0⟩, ⟨0xD0100001, 0x41424344, 0, 0⟩] ∧
    translated downgrade ps = .ok [⟨0x20903C40, 0, 0, 0⟩, ⟨0x20903C00, 0, 0, 0⟩, ⟨0xD0100001, 0x41424344, 0, 0⟩] := by
  rintro _ rfl
  refine ⟨by decide, by decide, by decide, by decide, by decide⟩

/-- C105: over a cable, in group 0, with the parser as it is constructed. -/
example : (∀ q ∈ [⟨0x40903C00, 0x80000000, 0, 0⟩, ⟨0x40923E80, 0x10000000, 0, 0⟩], (q : Packet).type = 4 ∧ q.group = 0 ∧ hasAttribute q = false) ∧
    translated downgrade [⟨0x40903C00, 0x80000000, 0, 0⟩, ⟨0x40923E80, 0x10000000, 0, 0⟩] = .ok [⟨0x20903C40, 0, 0, 0⟩, ⟨0x20923E08, 0, 0, 0⟩] := by
  decide

end Midi
