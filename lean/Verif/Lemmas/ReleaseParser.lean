import Verif.Model.ReleaseParser
import Verif.Lemmas.Release
import Verif.Props.ExceptionsParser

/-!
# Helper lemmas: the byte stream parser in a build without assertions
-/

namespace Midi
open Spec

theorem release_setByte {p q : Packet} {b : Nat} {v : Byte} (h : p.setByte b v = .ok q) : Release.setByte p b v = q := by
  unfold Packet.setByte at h
  unfold Release.setByte
  by_cases hb : b < 16
  · rw [if_pos hb] at h ⊢
    exact Except.ok.inj h
  · rw [if_neg hb] at h
    cases h

theorem release_makeSysex7 {f : Format} {g : Byte} {q : Packet} (h : makeSysex7 f g = .ok q) : Release.makeSysex7 f g = q := by
  by_cases hg : g < 16
  · rw [Release.makeSysex7_eq_ok f hg] at h
    exact Except.ok.inj h
  · have : makeSysex7 f g = .error .assertFailed := by
      unfold makeSysex7 sysex7Packet Packet.setGroup
      rw [assert_fail (by simpa using hg)]; rfl
    rw [this] at h; cases h

theorem release_sysexStart {s : Parser} {t : Trouble} {x : Parser × List Event × Bool} (h : s.trySysexStart t = .ok x) :
    Release.trySysexStart s t = x := by
  unfold Parser.trySysexStart at h
  cases e : makeSysex7 .start s.group with
  | error f => rw [e] at h; cases h
  | ok p =>
    rw [e, ok_bind] at h
    unfold Release.trySysexStart
    rw [release_makeSysex7 e]
    dsimp only at h ⊢
    split at h
    · next hc => rw [if_pos hc]; split at h
                 · next hm => rw [if_pos hm]; exact Except.ok.inj h
                 · next hm => rw [if_neg hm]; exact Except.ok.inj h
    · next hc => rw [if_neg hc]; exact Except.ok.inj h

theorem release_continuePacket {s : Parser} {b : Byte} {t : Trouble} {x : Parser × List Event × Bool}
    (h : s.trySysexContinuePacket b t = .ok x) : Release.trySysexContinuePacket s b t = x := by
  unfold Parser.trySysexContinuePacket at h
  cases e : s.packet.setByte s.packetByte.toNat b with
  | error f => rw [e] at h; cases h
  | ok p =>
    rw [e, ok_bind] at h
    unfold Release.trySysexContinuePacket
    rw [release_setByte e]
    dsimp only at h ⊢
    by_cases h8 : s.packetByte + 1 = 8
    · rw [if_pos h8] at h ⊢
      by_cases hi : s.invokeCallbacks = true
      · rw [if_pos hi] at h
        rw [if_pos hi]
        cases e1 : p.setByte 1 ((p.status &&& 0xF0) + 6) with
        | error f => rw [e1] at h; cases h
        | ok q =>
          rw [e1] at h
          rw [release_setByte e1]
          simp only [ok_bind, pure_eq_ok] at h
          unfold Parser.tryCall at h ⊢
          dsimp only at h ⊢
          rw [if_pos hi] at h ⊢
          cases ht : t.callback with
          | true => rw [ht] at h; simpa using h
          | false =>
            rw [ht] at h
            cases e2 : makeSysex7 .cont s.group with
            | error f => rw [e2] at h; cases h
            | ok c => rw [e2] at h; rw [release_makeSysex7 e2]; simpa [ok_bind] using h
      · rw [if_neg hi] at h
        rw [if_neg hi]
        rw [tryCall_off (by simpa using hi)]
        simp only [ok_bind, pure_eq_ok] at h
        cases e2 : makeSysex7 .cont s.group with
        | error f => rw [e2] at h; cases h
        | ok c => rw [e2] at h; rw [release_makeSysex7 e2]; simpa [ok_bind] using h
    · rw [if_neg h8] at h ⊢
      exact Except.ok.inj h

theorem release_endPacket {s : Parser} {t : Trouble} {x : Parser × List Event × Bool}
    (h : s.trySysexEndPacket t = .ok x) : Release.trySysexEndPacket s t = x := by
  unfold Parser.trySysexEndPacket at h
  unfold Release.trySysexEndPacket
  dsimp only at h ⊢
  split at h
  · next hc => rw [if_pos hc]; exact Except.ok.inj h
  · next hc =>
    rw [if_neg hc]
    have key : ∀ v q, s.packet.setByte 1 v = .ok q → Release.setByte s.packet 1 v = q := fun v q e => release_setByte e
    generalize ((if s.packet.status &&& 0xF0 = Format.start.status then Format.complete.status else Format.fin.status) +
      ((s.packetByte - 2) &&& 0x0F)) = v at h ⊢
    cases e : s.packet.setByte 1 v with
    | error f => rw [e] at h; cases h
    | ok q =>
      rw [e, ok_bind] at h
      rw [key v q e]
      revert h
      cases (({ s with packet := q } : Parser).tryCall (.packet q) t).2 <;> simp [pure_eq_ok]

theorem release_dataByte {s : Parser} {b : Byte} {t : Trouble} {x : Parser × List Event × Bool}
    (h : s.tryDataByte b t = .ok x) : Release.tryDataByte s b t = x := by
  unfold Parser.tryDataByte at h
  unfold Release.tryDataByte
  split at h
  · next hc =>
    rw [if_pos hc]
    cases e : s.packet.setByte s.packetByte.toNat b with
    | error f => rw [e] at h; cases h
    | ok q =>
      rw [e, ok_bind] at h
      rw [release_setByte e]
      dsimp only at h ⊢
      split at h
      · next hm =>
        rw [if_pos hm]
        revert h
        generalize (if q.status < 0xF0 then ({ s with packet := q, missing := s.packetByte - 1, packetByte := 2 } : Parser) else
          { s with packet := q, missing := s.missing - 1 }) = s'
        cases (s'.tryCall (.packet s'.packet) t).2 <;> simp [pure_eq_ok]
      · next hm => rw [if_neg hm]; exact Except.ok.inj h
  · next hc => rw [if_neg hc]; exact Except.ok.inj h

theorem release_status {s : Parser} {b : Byte} {t : Trouble} {x : Parser × List Event × Bool}
    (h : s.tryFeedStatus b t = .ok x) : Release.tryFeedStatus s b t = x := by
  unfold Parser.tryFeedStatus at h
  unfold Release.tryFeedStatus
  split_ifs at h ⊢
  · exact release_sysexStart h
  · exact Except.ok.inj h
  · exact Except.ok.inj h
  · exact release_dataByte h

theorem release_feed {s : Parser} {b : Byte} {t : Trouble} {x : Parser × List Event × Bool}
    (h : s.tryFeed b t = .ok x) : Release.tryFeed s b t = x := by
  unfold Parser.tryFeed at h
  unfold Release.tryFeed
  split_ifs at h ⊢
  · exact Except.ok.inj h
  · exact Except.ok.inj h
  · exact release_continuePacket h
  · exact release_status h
  · exact Except.ok.inj h
  · exact release_endPacket h
  · exact release_status h

theorem release_block : ∀ (bs : List (Byte × Trouble)) {s : Parser} {x : Parser × List Event × Bool},
    s.tryBlock bs = .ok x → Release.tryBlock s bs = x := by
  intro bs
  induction bs with
  | nil => intro s x h; exact Except.ok.inj h
  | cons y bs ih =>
    obtain ⟨b, t⟩ := y
    intro s x h
    simp only [Parser.tryBlock] at h
    simp only [Release.tryBlock]
    cases e : s.tryFeed b t with
    | error f => rw [e] at h; cases h
    | ok z =>
      obtain ⟨s1, es, th⟩ := z
      rw [e, ok_bind] at h
      rw [release_feed e]
      cases th with
      | true => simpa [pure_eq_ok] using h
      | false =>
        simp only [Bool.false_eq_true, if_false] at h ⊢
        cases e2 : s1.tryBlock bs with
        | error f => rw [e2] at h; cases h
        | ok z2 => rw [e2, ok_bind] at h; rw [ih e2]; exact Except.ok.inj h

theorem release_all : ∀ (os : List Parser.Try) {s : Parser} {x : Parser × List Event},
    s.tryAll os = .ok x → Release.tryAll s os = x := by
  intro os
  induction os with
  | nil => intro s x h; exact Except.ok.inj h
  | cons o os ih =>
    intro s x h
    simp only [Parser.tryAll] at h
    simp only [Release.tryAll]
    cases e : s.tryOne o with
    | error f => rw [e] at h; cases h
    | ok z =>
      rw [e, ok_bind] at h
      have e1 : Release.tryOne s o = z := by
        cases o with
        | feed bs => exact release_block bs e
        | setGroup g => exact Except.ok.inj e
        | enable on => exact Except.ok.inj e
        | reset => exact Except.ok.inj e
      rw [e1]
      cases e2 : z.1.tryAll os with
      | error f => rw [e2] at h; cases h
      | ok z2 => rw [e2, ok_bind] at h; rw [ih e2]; exact Except.ok.inj h

/-! ## Settings -/

theorem SameSettings.rfl {p : Parser} : SameSettings p p := ⟨Eq.refl _, Eq.refl _, Eq.refl _⟩

theorem settings_realtime (p : Parser) (b : Byte) (t : Trouble) : SameSettings p (p.trySystemRealtime b t).1 := by
  unfold Parser.trySystemRealtime
  split_ifs <;> exact .rfl

theorem settings_common (p : Parser) (b : Byte) (t : Trouble) : SameSettings p (p.trySystemCommon b t).1 := by
  unfold Parser.trySystemCommon
  dsimp only
  split_ifs <;> exact .rfl

theorem settings_voice (p : Parser) (b : Byte) (t : Trouble) : SameSettings p (p.tryChannelVoice b t).1 := by
  unfold Parser.tryChannelVoice
  dsimp only
  split_ifs <;> exact .rfl

theorem settings_data (p : Parser) (b : Byte) (t : Trouble) : SameSettings p (Release.tryDataByte p b t).1 := by
  unfold Release.tryDataByte
  dsimp only
  split_ifs <;> exact .rfl

theorem settings_start (p : Parser) (t : Trouble) : SameSettings p (Release.trySysexStart p t).1 := by
  unfold Release.trySysexStart
  dsimp only
  split_ifs <;> exact .rfl

theorem settings_continueCallback (p : Parser) (b : Byte) (t : Trouble) : SameSettings p (p.trySysexContinueCallback b t).1 := by
  unfold Parser.trySysexContinueCallback
  split_ifs <;> exact .rfl

theorem settings_endCallback (p : Parser) (t : Trouble) : SameSettings p (p.trySysexEndCallback t).1 := by
  unfold Parser.trySysexEndCallback
  dsimp only
  split_ifs <;> exact .rfl

theorem settings_continuePacket (p : Parser) (b : Byte) (t : Trouble) : SameSettings p (Release.trySysexContinuePacket p b t).1 := by
  unfold Release.trySysexContinuePacket
  dsimp only
  split_ifs <;> exact .rfl

theorem settings_endPacket (p : Parser) (t : Trouble) : SameSettings p (Release.trySysexEndPacket p t).1 := by
  unfold Release.trySysexEndPacket
  dsimp only
  split_ifs <;> exact .rfl

theorem settings_status (p : Parser) (b : Byte) (t : Trouble) : SameSettings p (Release.tryFeedStatus p b t).1 := by
  unfold Release.tryFeedStatus
  split_ifs
  · exact settings_start p t
  · exact settings_common p b t
  · exact settings_voice p b t
  · exact settings_data p b t

theorem release_settings (p : Parser) (b : Byte) (t : Trouble) : SameSettings p (Release.tryFeed p b t).1 := by
  unfold Release.tryFeed
  split_ifs
  · exact settings_realtime p b t
  · exact settings_continueCallback p b t
  · exact settings_continuePacket p b t
  · exact settings_status { p with packet := {} } b t
  · exact settings_endCallback p t
  · exact settings_endPacket p t
  · exact settings_status p b t

theorem release_block_settings : ∀ (bs : List (Byte × Trouble)) (p : Parser), SameSettings p (Release.tryBlock p bs).1 := by
  intro bs
  induction bs with
  | nil => intro p; exact ⟨rfl, rfl, rfl⟩
  | cons x bs ih =>
    obtain ⟨b, t⟩ := x
    intro p
    simp only [Release.tryBlock]
    have h1 := release_settings p b t
    split
    · exact h1
    · have h2 := ih (Release.tryFeed p b t).1
      exact ⟨h2.1.trans h1.1, h2.2.1.trans h1.2.1, h2.2.2.trans h1.2.2⟩

/-! ## Groups out of range -/

/-- The parser with the group reduced to four bits. -/
def reduced (p : Parser) : Parser := { p with group := p.group &&& 0x0F }

theorem makeSystem_reduced (g a b c : Byte) : makeSystem (g &&& 0x0F) a b c = makeSystem g a b c := by
  unfold makeSystem; rw [BitVec.and_assoc]; rfl

theorem midi1Message_reduced (g a b c : Byte) : midi1Message (g &&& 0x0F) a b c = midi1Message g a b c := by
  unfold midi1Message; rw [BitVec.and_assoc]; rfl

theorem makeSysex7_reduced (f : Format) : ∀ (g : Byte), g < 0x40 →
    Release.makeSysex7 f (g &&& 0x0F) = Release.makeSysex7 f g := by
  cases f <;> decide +kernel

theorem makeSysex7_lost (f : Format) : ∀ (g : Byte), 0x40 ≤ g → (Release.makeSysex7 f g).type ≠ PacketType.data := by
  cases f <;> decide +kernel

theorem reduced_realtime (p : Parser) (b : Byte) (t : Trouble) : (reduced p).trySystemRealtime b t =
    (reduced (p.trySystemRealtime b t).1, (p.trySystemRealtime b t).2) := by
  unfold Parser.trySystemRealtime
  simp only [reduced, makeSystem_reduced]
  split <;> rfl

theorem reduced_common (p : Parser) (b : Byte) (t : Trouble) : (reduced p).trySystemCommon b t =
    (reduced (p.trySystemCommon b t).1, (p.trySystemCommon b t).2) := by
  unfold Parser.trySystemCommon
  simp only [reduced, makeSystem_reduced, Parser.tryCall]
  split_ifs <;> rfl

theorem reduced_voice (p : Parser) (b : Byte) (t : Trouble) : (reduced p).tryChannelVoice b t =
    (reduced (p.tryChannelVoice b t).1, (p.tryChannelVoice b t).2) := by
  unfold Parser.tryChannelVoice
  simp only [reduced, midi1Message_reduced, Parser.tryCall]
  split_ifs <;> rfl

theorem reduced_data (p : Parser) (b : Byte) (t : Trouble) : Release.tryDataByte (reduced p) b t =
    (reduced (Release.tryDataByte p b t).1, (Release.tryDataByte p b t).2) := by
  unfold Release.tryDataByte reduced
  by_cases h1 : p.packet.status ≠ 0 ∧ p.missing ≠ 0 ∧ p.packetByte < 4
  · simp only [if_pos h1]
    generalize Release.setByte p.packet p.packetByte.toNat b = q
    by_cases h2 : p.missing - 1 = 0
    · simp only [if_pos h2]
      by_cases h3 : q.status < 0xF0
      · simp only [if_pos h3, Parser.tryCall]
        cases p.invokeCallbacks <;> cases t.callback <;> by_cases h4 : q.status ≥ 0xF0 <;>
          first | (simp only [if_pos h4]; rfl) | (simp only [if_neg h4]; rfl)
      · simp only [if_neg h3, Parser.tryCall]
        cases p.invokeCallbacks <;> cases t.callback <;> by_cases h4 : q.status ≥ 0xF0 <;>
          first | (simp only [if_pos h4]; rfl) | (simp only [if_neg h4]; rfl)
    · simp only [if_neg h2]
  · simp only [if_neg h1]

theorem reduced_continueCallback (p : Parser) (b : Byte) (t : Trouble) : (reduced p).trySysexContinueCallback b t =
    (reduced (p.trySysexContinueCallback b t).1, (p.trySysexContinueCallback b t).2) := by
  unfold Parser.trySysexContinueCallback reduced
  by_cases h1 : p.packetByte = 0 ∨ p.packetByte = 1
  · simp only [if_pos h1]
  · by_cases h2 : p.packetByte = 2
    · simp only [if_neg h1, if_pos h2]
    · by_cases h3 : (p.packetByte = 3 ∨ p.packetByte = 4) ∧ p.sysex.manufacturerID &&& 0xFF0000 = 0
      · simp only [if_neg h1, if_neg h2, if_pos h3]
      · simp only [if_neg h1, if_neg h2, if_neg h3]
        split_ifs <;> rfl

theorem reduced_endCallback (p : Parser) (t : Trouble) : (reduced p).trySysexEndCallback t =
    (reduced (p.trySysexEndCallback t).1, (p.trySysexEndCallback t).2) := by
  unfold Parser.trySysexEndCallback reduced
  by_cases h1 : p.sysex.manufacturerID &&& 0xFF0000 = 0 ∧ p.packetByte < 5
  · simp only [if_pos h1]
  · simp only [if_neg h1, Parser.tryCall]
    cases p.invokeCallbacks <;> cases t.callback <;> rfl

theorem reduced_endPacket (p : Parser) (t : Trouble) : Release.trySysexEndPacket (reduced p) t =
    (reduced (Release.trySysexEndPacket p t).1, (Release.trySysexEndPacket p t).2) := by
  unfold Release.trySysexEndPacket reduced
  by_cases h1 : p.packet.status &&& 0xF0 = Format.start.status ∧ p.packetByte < 3
  · simp only [if_pos h1]
  · simp only [if_neg h1, Parser.tryCall]
    cases p.invokeCallbacks <;> cases t.callback <;> rfl

theorem reduced_continuePacket (p : Parser) (h : p.group < 0x40) (b : Byte) (t : Trouble) :
    Release.trySysexContinuePacket (reduced p) b t =
    (reduced (Release.trySysexContinuePacket p b t).1, (Release.trySysexContinuePacket p b t).2) := by
  unfold Release.trySysexContinuePacket reduced
  have e : Release.makeSysex7 .cont (p.group &&& 0x0F) = Release.makeSysex7 .cont p.group := makeSysex7_reduced _ _ h
  dsimp only
  generalize Release.setByte p.packet p.packetByte.toNat b = q
  by_cases h2 : p.packetByte + 1 = 8
  · simp only [if_pos h2]
    by_cases h3 : p.invokeCallbacks = true
    · simp only [if_pos h3, Parser.tryCall]
      cases t.callback <;> simp only [e, Bool.false_eq_true, if_false, if_true]
    · simp only [if_neg h3, Parser.tryCall]
      simp only [e, Bool.false_eq_true, if_false]
  · simp only [if_neg h2]

theorem reduced_start (p : Parser) (h : p.group < 0x40) (t : Trouble) : Release.trySysexStart (reduced p) t =
    (reduced (Release.trySysexStart p t).1, (Release.trySysexStart p t).2) := by
  unfold Release.trySysexStart reduced
  simp only [makeSysex7_reduced _ _ h]
  cases p.hasSysexCallback <;> cases t.memory <;> rfl

theorem reduced_status (p : Parser) (b : Byte) (h : p.group < 0x40 ∨ b ≠ 0xF0) (t : Trouble) : Release.tryFeedStatus (reduced p) b t =
    (reduced (Release.tryFeedStatus p b t).1, (Release.tryFeedStatus p b t).2) := by
  unfold Release.tryFeedStatus
  split_ifs with h1
  · exact reduced_start p (h.resolve_right (by simp [h1])) t
  · exact reduced_common p b t
  · exact reduced_voice p b t
  · exact reduced_data p b t

theorem reduced_feed (p : Parser) (h : p.group < 0x40) (b : Byte) (t : Trouble) : Release.tryFeed (reduced p) b t =
    (reduced (Release.tryFeed p b t).1, (Release.tryFeed p b t).2) := by
  unfold Release.tryFeed
  rw [show (reduced p).packet = p.packet from rfl, show (reduced p).hasSysexCallback = p.hasSysexCallback from rfl]
  split_ifs
  · exact reduced_realtime p b t
  · rw [reduced_continueCallback]
  · exact reduced_continuePacket p h b t
  · exact reduced_status { p with packet := {} } b (Or.inl h) t
  · exact reduced_endCallback p t
  · exact reduced_endPacket p t
  · exact reduced_status p b (Or.inl h) t

theorem reduced_block : ∀ (bs : List (Byte × Trouble)) (p : Parser), p.group < 0x40 → Release.tryBlock (reduced p) bs =
    (reduced (Release.tryBlock p bs).1, (Release.tryBlock p bs).2) := by
  intro bs
  induction bs with
  | nil => intro p _; rfl
  | cons x bs ih =>
    obtain ⟨b, t⟩ := x
    intro p h
    simp only [Release.tryBlock, reduced_feed p h]
    have hs := (release_settings p b t).1
    split
    · rfl
    · rw [ih _ (by rw [hs]; exact h)]

end Midi
