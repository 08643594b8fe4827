import Verif.Lemmas.CI

/-!
# Property C39: views of universal sysex and MIDI-CI messages never read outside the message

For every view: `validate` returns without fault, and if it returns true then so does the constructor of the view and
every accessor. The exception is `validate` of the two discovery views, which reads the version byte of messages that
have none (`C39_discovery_validate_reads_outside`).
-/

namespace Midi
open Spec UniversalSysex

/-! ## Universal sysex -/

theorem typeOf_noFault (s : Sysex) : NoFault (typeOf s) := by
  unfold typeOf
  split
  · rename_i h
    have : 2 ≤ s.data.length := by simp [isUniversal] at h; omega
    exact NoFault.bind (NoFault.index (by omega)) fun _ _ => NoFault.ok _
  · exact NoFault.ok _

theorem subtypeOf_noFault (s : Sysex) : NoFault (subtypeOf s) := by
  unfold subtypeOf
  split
  · rename_i h
    refine NoFault.index ?_
    simp at h; omega
  · exact NoFault.ok _

/-- C39: the functions that tell what a sysex message is are safe for every message. -/
theorem C39_universal (s : Sysex) : NoFault (typeOf s) ∧ NoFault (subtypeOf s) ∧ NoFault (deviceIdOf s) ∧
    NoFault (isIdentityRequest s) ∧ NoFault (isIdentityReply s) ∧ NoFault (UniversalSysex.asView s) ∧
    NoFault (UniversalSysex.Message.deviceId s) ∧ NoFault (UniversalSysex.Message.type s) ∧
    NoFault (UniversalSysex.Message.subtype s) := by
  refine ⟨typeOf_noFault s, subtypeOf_noFault s, ?_, ?_, ?_, ?_, ?_, ?_, ?_⟩
  · unfold deviceIdOf
    split
    · rename_i h
      exact NoFault.index (by simp [isUniversal] at h; omega)
    · exact NoFault.ok _
  · exact NoFault.and (NoFault.map _ (typeOf_noFault s)) fun _ => NoFault.map _ (subtypeOf_noFault s)
  · refine NoFault.and (NoFault.map _ (typeOf_noFault s)) fun _ => NoFault.and (NoFault.map _ (subtypeOf_noFault s))
      fun _ => NoFault.or (NoFault.and (NoFault.ok _) fun h => NoFault.dataAt ?_) (NoFault.ok _)
    simp at h; omega
  · unfold UniversalSysex.asView
    split
    · rename_i h
      have h2 : (s.manufacturerID == universalRealtime || s.manufacturerID == universalNonRealtime) = true ∧
        2 ≤ s.data.length := by simpa [isUniversal] using h
      refine NoFault.bind (x := UniversalSysex.makeView s) ?_ fun _ _ => NoFault.ok _
      unfold UniversalSysex.makeView
      rw [assert_ok h2.1, assert_ok (by simpa using h2.2)]
      exact NoFault.ok _
    · exact NoFault.ok _
  · unfold UniversalSysex.Message.deviceId
    split
    · exact NoFault.ok _
    · rename_i h
      refine NoFault.index (List.length_pos_iff.2 ?_)
      intro e; rw [e] at h; exact h rfl
  · unfold UniversalSysex.Message.type
    split
    · exact NoFault.ok _
    · exact NoFault.bind (NoFault.index (by omega)) fun _ _ => NoFault.ok _
  · unfold UniversalSysex.Message.subtype
    split
    · exact NoFault.index (by omega)
    · exact NoFault.ok _

/-- C39: the accessors of the universal sysex view are safe for the messages it can be made from. -/
theorem C39_universal_view (s : Sysex) (h : UniversalSysex.asView s = .ok (some s)) :
    NoFault (UniversalSysex.View.deviceId s) ∧ NoFault (UniversalSysex.View.type s) ∧
    NoFault (UniversalSysex.View.subtype s) := by
  have h2 : 2 ≤ s.data.length := by
    unfold UniversalSysex.asView at h
    split at h
    · rename_i hu; simp [isUniversal] at hu; omega
    · cases h
  refine ⟨NoFault.index (by omega), NoFault.bind (NoFault.index (by omega)) fun _ _ => NoFault.ok _, ?_⟩
  unfold UniversalSysex.View.subtype
  split
  · exact NoFault.index (by omega)
  · exact NoFault.ok _

example : UniversalSysex.asView ⟨0x7F0000, [0x10, 0x06]⟩ = .ok (some ⟨0x7F0000, [0x10, 0x06]⟩) := by rfl

/-- What C39 says about a view: `validate` finishes without fault, and if it returns true then so do the constructor,
the accessors every MIDI-CI view has, and those given. -/
def Spec.ViewSafe (validate : Sysex → Except Fault Bool) (s : Sysex) (accessors : Prop) : Prop :=
  ∃ b, validate s = .ok b ∧ CI.asView validate s = .ok (if b then some s else none) ∧
    (b = true → NoFault (UniversalSysex.View.deviceId s) ∧ NoFault (UniversalSysex.View.type s) ∧
      NoFault (UniversalSysex.View.subtype s) ∧ NoFault (CI.View.messageVersion s) ∧ NoFault (CI.View.sourceMuid s) ∧
      NoFault (CI.View.destinationMuid s) ∧ accessors)

/-- C39: the view of an identity reply. -/
theorem C39_identity_reply (s : Sysex) :
    ∃ b, IdentityReplyView.validate s = .ok b ∧ asIdentityReplyView s = .ok (if b then some s else none) ∧
      isIdentityReply s = .ok b ∧
      (b = true → NoFault (UniversalSysex.View.deviceId s) ∧ NoFault (UniversalSysex.View.type s) ∧
        NoFault (UniversalSysex.View.subtype s) ∧ NoFault (IdentityReplyView.identity s)) := by
  obtain ⟨b, hb⟩ : NoFault (IdentityReplyView.validate s) := (C39_universal s).2.2.2.2.1
  refine ⟨b, hb, ?_, hb, ?_⟩
  all_goals
    cases b with
    | false => first | (unfold asIdentityReplyView; rw [hb]; rfl) | (intro h; cases h)
    | true =>
      have hb' := hb
      unfold IdentityReplyView.validate at hb'
      rw [andThen_true, andThen_true, orElse_true, andThen_true] at hb'
      obtain ⟨ht, _, hl⟩ := hb'
      have h12 : (s.data.length = 12 ∧ ∃ d, s.data[3]? = some d ∧ d ≠ 0) ∨ s.data.length = 14 := by
        rcases hl with ⟨h1, h2⟩ | ⟨_, h2⟩
        · left
          obtain ⟨d, hd, hc⟩ := dataAt_true.1 h2
          exact ⟨by simpa using h1, d, hd, by simpa using hc⟩
        · right; simpa using h2
      have hn : 12 ≤ s.data.length := by rcases h12 with h | h <;> omega
      first
      | unfold asIdentityReplyView
        rw [hb]
        have hu : isUniversal s = true := by
          obtain ⟨t, h1, h2⟩ := map_true.1 ht
          unfold typeOf at h1
          by_cases hu : isUniversal s = true
          · exact hu
          · rw [if_neg hu] at h1
            injection h1 with h1
            subst h1
            exact absurd h2 (by decide)
        have hu' : (s.manufacturerID == universalRealtime || s.manufacturerID == universalNonRealtime) = true := by
          simp only [isUniversal, Bool.and_eq_true] at hu; exact hu.1
        show (UniversalSysex.makeView s >>= fun v => _) = _
        unfold UniversalSysex.makeView
        rw [assert_ok hu', assert_ok (by simp; omega)]
        rfl
      | intro _
        refine ⟨NoFault.index (by omega), NoFault.bind (NoFault.index (by omega)) fun _ _ => NoFault.ok _, ?_, ?_⟩
        · unfold UniversalSysex.View.subtype
          rw [if_pos (by omega)]
          exact NoFault.index (by omega)
        · unfold IdentityReplyView.identity
          refine NoFault.bind (NoFault.index (by omega)) fun d hd => ?_
          rw [index_iff] at hd
          by_cases h0 : d = 0
          · rw [if_neg (by simpa using h0)]
            have : s.data.length = 14 := by
              rcases h12 with ⟨_, d', hd', hne⟩ | h
              · rw [hd] at hd'; injection hd' with e; exact absurd (e ▸ h0) hne
              · exact h
            refine NoFault.bind (NoFault.index (by omega)) fun _ _ => NoFault.bind (NoFault.index (by omega)) fun _ _ =>
              NoFault.bind (NoFault.uint14 (by omega)) fun _ _ => NoFault.bind (NoFault.uint14 (by omega)) fun _ _ =>
              NoFault.bind (NoFault.uint28 (by omega)) fun _ _ => NoFault.ok _
          · rw [if_pos h0]
            refine NoFault.bind (NoFault.uint14 (by omega)) fun _ _ => NoFault.bind (NoFault.uint14 (by omega))
              fun _ _ => NoFault.bind (NoFault.uint28 (by omega)) fun _ _ => NoFault.ok _

example : IdentityReplyView.validate ⟨0x7E0000, [0x10, 6, 2, 0x41, 1, 0, 2, 0, 3, 0, 0, 0]⟩ = .ok true := by rfl

/-! ## MIDI-CI views -/

namespace CI

/-- The general part of the proofs: it suffices that `validate` does not fault, implies the general conditions of a
MIDI-CI message, and that the special accessors are safe. -/
theorem viewSafe_of {validate : Sysex → Except Fault Bool} {s : Sysex} {P : Prop} (h : NoFault (validate s))
    (hv : validate s = .ok true → s.manufacturerID = universalNonRealtime ∧ 12 ≤ s.data.length ∧
      s.data[1]? = some 0x0D ∧ P) : ViewSafe validate s P := by
  obtain ⟨b, hb⟩ := h
  refine ⟨b, hb, ?_, ?_⟩
  · unfold asView
    rw [hb]
    cases b with
    | false => rfl
    | true =>
      obtain ⟨h1, h2, h3, -⟩ := hv hb
      have hm : makeView s = .ok s := by
        unfold makeView UniversalSysex.makeView
        rw [assert_ok (by rw [h1]; rfl), assert_ok (by simp; omega)]
        simp only [ok_bind, pure_eq_ok]
        rw [show View.validate s = .ok true by
          unfold View.validate
          rw [andThen_true, andThen_true, isNonRealtime_true, sizeAtLeast_true, dataAt_true]
          exact ⟨h1, h2, _, h3, rfl⟩]
        rfl
      show (makeView s >>= fun v => pure (some v)) = _
      rw [hm]; rfl
  · rintro rfl
    obtain ⟨-, h2, h3, hp⟩ := hv hb
    refine ⟨NoFault.index (by omega), NoFault.bind (NoFault.index (by omega)) fun _ _ => NoFault.ok _, ?_,
      NoFault.index (by omega), NoFault.uint28 (by omega), NoFault.uint28 (by omega), hp⟩
    unfold UniversalSysex.View.subtype
    rw [if_pos (by omega)]
    exact NoFault.index (by omega)

theorem isCI {s : Sysex} (h : (typeOf s).map (· == 0x7E0D) = .ok true) :
    s.manufacturerID = universalNonRealtime ∧ s.data[1]? = some 0x0D := by
  obtain ⟨t, h1, h2⟩ := map_true.1 h
  unfold typeOf at h1
  by_cases hu : isUniversal s = true
  · rw [if_pos hu] at h1
    cases hi : index s.data 1 with
    | error e => rw [hi] at h1; cases h1
    | ok d =>
      rw [hi] at h1
      injection h1 with h1
      subst h1
      simp only [isUniversal, Bool.and_eq_true, Bool.or_eq_true, beq_iff_eq] at hu
      rcases hu.1 with e | e
      · exfalso
        rw [e] at h2
        clear hi hu e
        revert h2; revert d; decide +kernel
      · refine ⟨e, ?_⟩
        rw [e] at h2
        have : d = 0x0D := by clear hi hu e; revert h2; revert d; decide +kernel
        rw [← this]; exact index_iff.1 hi
  · rw [if_neg hu] at h1
    injection h1 with h1
    subst h1
    exact absurd h2 (by decide)

macro "ci_nofault" : tactic => `(tactic| repeat' first
  | exact NoFault.ok _
  | exact NoFault.map _ (typeOf_noFault _)
  | exact NoFault.map _ (subtypeOf_noFault _)
  | (refine NoFault.and ?_ fun h => ?_ <;>
      try simp only [sizeAtLeast_true, isNonRealtime_true, sizeAtLeast14_true] at h)
  | refine NoFault.or ?_ ?_
  | (refine NoFault.dataAt ?_; omega)
  | (refine NoFault.size14 ?_; omega)
  | (refine NoFault.map _ (NoFault.uint28 ?_); omega))

theorem eq_of_dataAt {s : Sysex} {i : Nat} {v : Byte} (h : dataAt s i (· == v) = .ok true) : s.data[i]? = some v := by
  obtain ⟨b, hb, hc⟩ := dataAt_true.1 h
  rw [hb, eq_of_beq hc]

/-- C39: the base view of all MIDI-CI messages. -/
theorem C39_capability_inquiry (s : Sysex) : ViewSafe View.validate s True := by
  refine viewSafe_of NoFault.view fun h => ?_
  simp only [View.validate, andThen_true, isNonRealtime_true, sizeAtLeast_true] at h
  exact ⟨h.1, h.2.1, eq_of_dataAt h.2.2, trivial⟩

/-- C39: endpoint information inquiry. -/
theorem C39_endpoint_information_inquiry (s : Sysex) :
    ViewSafe EndpointInformationInquiryView.validate s (NoFault (EndpointInformationInquiryView.status s)) := by
  refine viewSafe_of (by unfold EndpointInformationInquiryView.validate; ci_nofault) fun h => ?_
  simp only [EndpointInformationInquiryView.validate, andThen_true, isNonRealtime_true, sizeAtLeast_true] at h
  exact ⟨h.1, by omega, eq_of_dataAt h.2.2.1, NoFault.index (by omega)⟩

/-- C39: endpoint information reply. -/
theorem C39_endpoint_information_reply (s : Sysex) :
    ViewSafe EndpointInformationReplyView.validate s (NoFault (EndpointInformationReplyView.status s) ∧
      NoFault (EndpointInformationReplyView.dataLength s) ∧ NoFault (EndpointInformationReplyView.data s)) := by
  refine viewSafe_of (by unfold EndpointInformationReplyView.validate; ci_nofault) fun h => ?_
  simp only [EndpointInformationReplyView.validate, andThen_true, isNonRealtime_true, sizeAtLeast_true,
    sizeAtLeast14_true] at h
  obtain ⟨h1, h2, ⟨l, hl, h3⟩, h4, -⟩ := h
  refine ⟨h1, by omega, eq_of_dataAt h4, NoFault.index (by omega), NoFault.uint14 (by omega), ?_⟩
  unfold EndpointInformationReplyView.data EndpointInformationReplyView.dataLength
  rw [hl]
  exact NoFault.slice h3

/-- The accessors of ACK and NAK. -/
theorem nack_safe {s : Sysex} (h2 : 22 ≤ s.data.length) {l : U16} (hl : s.makeUint14 20 = .ok l)
    (h3 : 22 + l.toNat ≤ s.data.length) : NoFault (Nack.transaction s) ∧ NoFault (Nack.statusCode s) ∧
      NoFault (Nack.statusData s) ∧ NoFault (Nack.details s) ∧ NoFault (Nack.messageLength s) ∧
      NoFault (Nack.message s) := by
  refine ⟨NoFault.index (by omega), NoFault.index (by omega), NoFault.index (by omega), NoFault.slice (by omega),
    NoFault.uint14 (by omega), ?_⟩
  unfold Nack.message Nack.messageLength
  rw [hl]
  exact NoFault.slice h3

/-- C39: ACK. -/
theorem C39_ack (s : Sysex) : ViewSafe AckView.validate s (NoFault (Nack.transaction s) ∧ NoFault (Nack.statusCode s) ∧
      NoFault (Nack.statusData s) ∧ NoFault (Nack.details s) ∧ NoFault (Nack.messageLength s) ∧
      NoFault (Nack.message s)) := by
  refine viewSafe_of (by unfold AckView.validate; ci_nofault) fun h => ?_
  simp only [AckView.validate, andThen_true, isNonRealtime_true, sizeAtLeast_true, sizeAtLeast14_true] at h
  obtain ⟨h1, h2, ⟨l, hl, h3⟩, h4, -⟩ := h
  exact ⟨h1, by omega, eq_of_dataAt h4, nack_safe h2 hl h3⟩

/-- C39: NAK. -/
theorem C39_nak (s : Sysex) : ViewSafe NakView.validate s (NoFault (Nack.transaction s) ∧ NoFault (Nack.statusCode s) ∧
      NoFault (Nack.statusData s) ∧ NoFault (Nack.details s) ∧ NoFault (Nack.messageLength s) ∧
      NoFault (Nack.message s)) := by
  refine viewSafe_of (by unfold NakView.validate; ci_nofault) fun h => ?_
  simp only [NakView.validate, andThen_true, isNonRealtime_true, sizeAtLeast_true, sizeAtLeast14_true] at h
  obtain ⟨h1, h2, ⟨l, hl, h3⟩, h4, -⟩ := h
  exact ⟨h1, by omega, eq_of_dataAt h4, nack_safe h2 hl h3⟩

/-- C39: invalidate MUID. -/
theorem C39_invalidate_muid (s : Sysex) :
    ViewSafe InvalidateMuidView.validate s (NoFault (InvalidateMuidView.targetMuid s)) := by
  refine viewSafe_of (by unfold InvalidateMuidView.validate; ci_nofault) fun h => ?_
  simp only [InvalidateMuidView.validate, andThen_true, sizeAtLeast_true] at h
  exact ⟨(isCI h.1).1, by omega, (isCI h.1).2, NoFault.uint28 (by omega)⟩

/-- C39: profile inquiry. -/
theorem C39_profile_inquiry (s : Sysex) : ViewSafe ProfileInquiryView.validate s True := by
  refine viewSafe_of (by unfold ProfileInquiryView.validate; ci_nofault) fun h => ?_
  simp only [ProfileInquiryView.validate, andThen_true, sizeAtLeast_true] at h
  exact ⟨(isCI h.1).1, by omega, (isCI h.1).2, trivial⟩

theorem profileAt_noFault {s : Sysex} {pos : Nat} (h : pos + 5 ≤ s.data.length) : NoFault (profileAt s pos) := by
  unfold profileAt
  exact NoFault.bind (NoFault.index (by omega)) fun _ _ => NoFault.bind (NoFault.index (by omega)) fun _ _ =>
    NoFault.bind (NoFault.index (by omega)) fun _ _ => NoFault.bind (NoFault.index (by omega)) fun _ _ =>
    NoFault.bind (NoFault.index (by omega)) fun _ _ => NoFault.ok _

theorem profilesFrom_noFault {s : Sysex} (n : Nat) {d : Nat} (h : d + n * 5 ≤ s.data.length) :
    NoFault (ProfileInquiryReplyView.profilesFrom s n d) := by
  induction n generalizing d with
  | zero => exact NoFault.ok _
  | succ n ih =>
    unfold ProfileInquiryReplyView.profilesFrom
    exact NoFault.bind (profileAt_noFault (by omega)) fun _ _ => NoFault.bind (ih (by omega)) fun _ _ => NoFault.ok _

theorem makeProfiles_noFault {s : Sysex} {pos : Nat} {n : U16} (hn : s.makeUint14 pos = .ok n)
    (h : pos + 2 + n.toNat * 5 ≤ s.data.length) : NoFault (ProfileInquiryReplyView.makeProfiles s pos) := by
  unfold ProfileInquiryReplyView.makeProfiles
  rw [assert_ok (by simp; omega), hn]
  simp only [ok_bind]
  rw [assert_ok (by simp; omega)]
  exact profilesFrom_noFault _ h

/-- What `profile_inquiry_reply_view::validate` checks. -/
theorem profileInquiryReply_true {s : Sysex} (h : ProfileInquiryReplyView.validate s = .ok true) :
    s.manufacturerID = universalNonRealtime ∧ s.data[1]? = some 0x0D ∧ s.data[2]? = some 0x21 ∧ 16 ≤ s.data.length ∧
    ∃ n m, s.makeUint14 12 = .ok n ∧ s.makeUint14 (14 + n.toNat * 5) = .ok m ∧
      16 + n.toNat * 5 + m.toNat * 5 ≤ s.data.length := by
  unfold ProfileInquiryReplyView.validate at h
  generalize hc : (isNonRealtime s &&! sizeAtLeast s 16 &&! dataAt s 1 (· == 0x0D) &&! dataAt s 2 (· == 0x21)) = c at h
  match c, hc, h with
  | .error e, _, h => cases h
  | .ok false, _, h => cases h
  | .ok true, hc, h =>
    simp only [andThen_true, isNonRealtime_true, sizeAtLeast_true] at hc
    obtain ⟨h1, h2, h3, h4⟩ := hc
    refine ⟨h1, eq_of_dataAt h3, eq_of_dataAt h4, h2, ?_⟩
    obtain ⟨n, hn⟩ := NoFault.uint14 (s := s) (pos := 12) (by omega)
    simp only [ok_bind, hn, if_true, pure_eq_ok] at h
    by_cases he : 16 + n.toNat * 5 ≤ s.data.length
    · rw [if_pos he] at h
      obtain ⟨m, hm⟩ := NoFault.uint14 (s := s) (pos := 14 + n.toNat * 5) (by omega)
      rw [show 16 + n.toNat * 5 - 2 = 14 + n.toNat * 5 by omega, hm] at h
      simp only [ok_bind, Except.ok.injEq, decide_eq_true_eq] at h
      exact ⟨n, m, hn, hm, h⟩
    · rw [if_neg he] at h
      cases h

theorem profileInquiryReply_noFault (s : Sysex) : NoFault (ProfileInquiryReplyView.validate s) := by
  unfold ProfileInquiryReplyView.validate
  refine NoFault.bind (by ci_nofault) fun b hb => ?_
  cases b with
  | false => exact NoFault.ok _
  | true =>
    simp only [andThen_true, isNonRealtime_true, sizeAtLeast_true] at hb
    rw [if_pos rfl]
    refine NoFault.bind (NoFault.uint14 (by omega)) fun n _ => ?_
    by_cases he : 16 + n.toNat * 5 ≤ s.data.length
    · rw [if_pos he]
      exact NoFault.bind (NoFault.uint14 (by omega)) fun m _ => NoFault.ok _
    · rw [if_neg he]
      exact NoFault.ok _

/-- C39: profile inquiry reply. -/
theorem C39_profile_inquiry_reply (s : Sysex) :
    ViewSafe ProfileInquiryReplyView.validate s (NoFault (ProfileInquiryReplyView.hasEnabled s) ∧
      NoFault (ProfileInquiryReplyView.hasDisabled s) ∧ NoFault (ProfileInquiryReplyView.numEnabled s) ∧
      NoFault (ProfileInquiryReplyView.numDisabled s) ∧ NoFault (ProfileInquiryReplyView.enabled s) ∧
      NoFault (ProfileInquiryReplyView.disabled s)) := by
  refine viewSafe_of (profileInquiryReply_noFault s) fun h => ?_
  obtain ⟨h1, h2, -, h3, n, m, hn, hm, hl⟩ := profileInquiryReply_true h
  have ho : ProfileInquiryReplyView.offsetOfDisabled s = .ok (14 + n.toNat * 5) := by
    unfold ProfileInquiryReplyView.offsetOfDisabled; rw [hn]; rfl
  refine ⟨h1, by omega, h2, ?_, ?_, NoFault.uint14 (by omega), ?_, makeProfiles_noFault hn (by omega), ?_⟩
  · exact NoFault.bind (NoFault.index (by omega)) fun _ _ => NoFault.bind (NoFault.index (by omega)) fun _ _ =>
      NoFault.ok _
  · unfold ProfileInquiryReplyView.hasDisabled
    rw [ho]
    simp only [ok_bind]
    exact NoFault.bind (NoFault.index (by omega)) fun _ _ => NoFault.bind (NoFault.index (by omega)) fun _ _ =>
      NoFault.ok _
  · unfold ProfileInquiryReplyView.numDisabled
    rw [ho]
    exact ⟨m, hm⟩
  · unfold ProfileInquiryReplyView.disabled
    rw [ho]
    exact makeProfiles_noFault hm (by omega)

/-- C39: views of messages about one profile. -/
theorem C39_profile_id (s : Sysex) : ViewSafe ProfileIdView.validate s (NoFault (ProfileIdView.profile s)) := by
  refine viewSafe_of (by unfold ProfileIdView.validate; ci_nofault) fun h => ?_
  simp only [ProfileIdView.validate, andThen_true, isNonRealtime_true, sizeAtLeast_true] at h
  exact ⟨h.1, by omega, eq_of_dataAt h.2.2.1, profileAt_noFault (by omega)⟩

/-- C39: views of messages about one profile and a destination. -/
theorem C39_profile_destination (s : Sysex) : ViewSafe ProfileDestinationView.validate s
    (NoFault (ProfileIdView.profile s) ∧ NoFault (ProfileDestinationView.numChannels s) ∧
      NoFault (ProfileDestinationView.params s)) := by
  refine viewSafe_of (by unfold ProfileDestinationView.validate; ci_nofault) fun h => ?_
  simp only [ProfileDestinationView.validate, andThen_true, isNonRealtime_true, sizeAtLeast_true] at h
  refine ⟨h.1, by omega, eq_of_dataAt h.2.2.1, profileAt_noFault (by omega), NoFault.uint14 (by omega), ?_⟩
  exact NoFault.bind (NoFault.index (by omega)) fun _ _ => NoFault.bind (NoFault.uint14 (by omega)) fun _ _ =>
    NoFault.ok _

/-- C39: profile details inquiry. -/
theorem C39_profile_details_inquiry (s : Sysex) : ViewSafe ProfileDetailsInquiryView.validate s
    (NoFault (ProfileDetailsInquiryView.profile s) ∧ NoFault (ProfileDetailsInquiryView.target s)) := by
  refine viewSafe_of (by unfold ProfileDetailsInquiryView.validate; ci_nofault) fun h => ?_
  simp only [ProfileDetailsInquiryView.validate, andThen_true, isNonRealtime_true, sizeAtLeast_true] at h
  exact ⟨h.1, by omega, eq_of_dataAt h.2.2.1, profileAt_noFault (by omega), NoFault.index (by omega)⟩

/-- C39: profile details reply. -/
theorem C39_profile_details_reply (s : Sysex) : ViewSafe ProfileDetailsReplyView.validate s
    (NoFault (ProfileDetailsReplyView.profile s) ∧ NoFault (ProfileDetailsReplyView.target s) ∧
      NoFault (ProfileDetailsReplyView.dataLength s) ∧ NoFault (ProfileDetailsReplyView.data s)) := by
  refine viewSafe_of (by unfold ProfileDetailsReplyView.validate; ci_nofault) fun h => ?_
  simp only [ProfileDetailsReplyView.validate, andThen_true, isNonRealtime_true, sizeAtLeast_true,
    sizeAtLeast14_true] at h
  obtain ⟨h1, h2, ⟨l, hl, h3⟩, h4, -⟩ := h
  refine ⟨h1, by omega, eq_of_dataAt h4, profileAt_noFault (by omega), NoFault.index (by omega),
    NoFault.uint14 (by omega), ?_⟩
  unfold ProfileDetailsReplyView.data ProfileDetailsReplyView.dataLength
  rw [hl]
  exact NoFault.slice h3

/-- C39: profile specific data. -/
theorem C39_profile_specific_data (s : Sysex) : ViewSafe ProfileSpecificDataView.validate s
    (NoFault (ProfileIdView.profile s) ∧ NoFault (ProfileSpecificDataView.dataSize s) ∧
      NoFault (ProfileSpecificDataView.data s)) := by
  refine viewSafe_of (by unfold ProfileSpecificDataView.validate; ci_nofault) fun h => ?_
  simp only [ProfileSpecificDataView.validate, andThen_true, isNonRealtime_true, sizeAtLeast_true, map_true,
    decide_eq_true_eq] at h
  obtain ⟨h1, h2, ⟨l, hl, h3⟩, h4, -⟩ := h
  have hs : ProfileSpecificDataView.dataSize s = .ok l.toNat := by
    unfold ProfileSpecificDataView.dataSize; rw [hl]; rfl
  refine ⟨h1, by omega, eq_of_dataAt h4, profileAt_noFault (by omega), ⟨_, hs⟩, ?_⟩
  unfold ProfileSpecificDataView.data
  rw [hs]
  exact NoFault.slice h3

/-- C39: property exchange capabilities. -/
theorem C39_property_exchange_capabilities (s : Sysex) : ViewSafe PropertyExchangeCapabilitiesView.validate s
    (NoFault (PropertyExchangeCapabilitiesView.maxRequests s) ∧
      NoFault (PropertyExchangeCapabilitiesView.versionMajor s) ∧
      NoFault (PropertyExchangeCapabilitiesView.versionMinor s)) := by
  refine viewSafe_of (by unfold PropertyExchangeCapabilitiesView.validate; ci_nofault) fun h => ?_
  simp only [PropertyExchangeCapabilitiesView.validate, andThen_true, isNonRealtime_true, sizeAtLeast_true, orElse_true] at h
  obtain ⟨h1, h2, h3, -, -, h4⟩ := h
  refine ⟨h1, by omega, eq_of_dataAt h3, NoFault.index (by omega), ?_, ?_⟩
  all_goals
    refine NoFault.bind (x := index s.data 3) (NoFault.index (by omega)) fun v hv => ?_
    rcases h4 with h4 | ⟨-, h4⟩
    · obtain ⟨w, hw, hc⟩ := dataAt_true.1 h4
      rw [index_iff, hw] at hv
      injection hv with hv
      subst hv
      rw [if_neg (by simpa using hc)]
      exact NoFault.ok _
    · split
      · exact NoFault.index (by omega)
      · exact NoFault.ok _

/-- What `property_data_message_view::validate` checks. -/
theorem propertyData_true {s : Sysex} (h : PropertyDataView.validate s = .ok true) :
    s.manufacturerID = universalNonRealtime ∧ s.data[1]? = some 0x0D ∧
    (∃ t, s.data[2]? = some t ∧ 0x34 ≤ t ∧ (t ≤ 0x39 ∨ t = 0x3F)) ∧ 21 ≤ s.data.length ∧
    ∃ hd num cur ch, s.makeUint14 13 = .ok hd ∧ s.makeUint14 (15 + hd.toNat) = .ok num ∧
      s.makeUint14 (17 + hd.toNat) = .ok cur ∧ s.makeUint14 (19 + hd.toNat) = .ok ch ∧
      21 + hd.toNat + ch.toNat ≤ s.data.length := by
  unfold PropertyDataView.validate at h
  generalize hc : (isNonRealtime s &&! sizeAtLeast s 21 &&! dataAt s 1 (· == 0x0D) &&!
    dataAt s 2 (fun v => decide (v ≥ 0x34))) = c at h
  match c, hc, h with
  | .error e, _, h => cases h
  | .ok false, _, h => cases h
  | .ok true, hc, h =>
    simp only [andThen_true, isNonRealtime_true, sizeAtLeast_true] at hc
    obtain ⟨h1, h2, h3, h4⟩ := hc
    obtain ⟨t, ht, ht'⟩ := dataAt_true.1 h4
    simp only [ok_bind, if_true] at h
    generalize hc : (dataAt s 2 (fun v => decide (v ≤ 0x39)) ||! dataAt s 2 (· == 0x3F)) = c at h
    match c, hc, h with
    | .error e, _, h => cases h
    | .ok false, _, h => cases h
    | .ok true, hc, h =>
      have ht2 : t ≤ 0x39 ∨ t = 0x3F := by
        rw [orElse_true] at hc
        rcases hc with hc | ⟨-, hc⟩
        · obtain ⟨t', e, hc⟩ := dataAt_true.1 hc
          rw [ht] at e; injection e with e; subst e
          exact Or.inl (by simpa using hc)
        · have e := eq_of_dataAt hc
          rw [ht] at e; injection e with e
          exact Or.inr e
      refine ⟨h1, eq_of_dataAt h3, ⟨t, ht, by simpa using ht', ht2⟩, h2, ?_⟩
      obtain ⟨hd, hhd⟩ := NoFault.uint14 (s := s) (pos := 13) (by omega)
      simp only [ok_bind, hhd, if_true, pure_eq_ok] at h
      by_cases he : s.data.length < 15 + hd.toNat + 6
      · rw [if_pos he] at h; cases h
      · rw [if_neg he] at h
        obtain ⟨num, hnum⟩ := NoFault.uint14 (s := s) (pos := 15 + hd.toNat) (by omega)
        obtain ⟨cur, hcur⟩ := NoFault.uint14 (s := s) (pos := 17 + hd.toNat) (by omega)
        obtain ⟨ch, hch⟩ := NoFault.uint14 (s := s) (pos := 19 + hd.toNat) (by omega)
        rw [hnum, hcur, hch] at h
        simp only [ok_bind] at h
        split at h
        · cases h
        · split at h
          · cases h
          · split at h
            · cases h
            · simp only [Except.ok.injEq, decide_eq_true_eq] at h
              exact ⟨hd, num, cur, ch, hhd, hnum, hcur, hch, h⟩

theorem propertyData_noFault (s : Sysex) : NoFault (PropertyDataView.validate s) := by
  unfold PropertyDataView.validate
  refine NoFault.bind (by ci_nofault) fun b hb => ?_
  cases b with
  | false => exact NoFault.ok _
  | true =>
    simp only [andThen_true, isNonRealtime_true, sizeAtLeast_true] at hb
    rw [if_pos rfl]
    refine NoFault.bind (by ci_nofault) fun b _ => ?_
    cases b with
    | false => exact NoFault.ok _
    | true =>
      rw [if_pos rfl]
      refine NoFault.bind (NoFault.uint14 (by omega)) fun n _ => ?_
      by_cases he : s.data.length < 15 + n.toNat + 6
      · rw [if_pos he]; exact NoFault.ok _
      · rw [if_neg he]
        refine NoFault.bind (NoFault.uint14 (by omega)) fun _ _ => NoFault.bind (NoFault.uint14 (by omega)) fun _ _ =>
          NoFault.bind (NoFault.uint14 (by omega)) fun _ _ => ?_
        dsimp only
        repeat' first
          | exact NoFault.ok _
          | (split; try dsimp only)

/-- The accessors of property data views. -/
def Spec.PropertyDataSafe (s : Sysex) : Prop :=
  NoFault (PropertyDataView.requestId s) ∧ NoFault (PropertyDataView.headerSize s) ∧
  NoFault (PropertyDataView.header s) ∧ NoFault (PropertyDataView.numberOfChunks s) ∧
  NoFault (PropertyDataView.numberOfThisChunk s) ∧ NoFault (PropertyDataView.chunkSize s) ∧
  NoFault (PropertyDataView.chunk s)

theorem propertyData_safe {s : Sysex} (h : PropertyDataView.validate s = .ok true) :
    s.manufacturerID = universalNonRealtime ∧ 12 ≤ s.data.length ∧ s.data[1]? = some 0x0D ∧ Spec.PropertyDataSafe s := by
  obtain ⟨h1, h2, -, h3, hd, num, cur, ch, hhd, hnum, hcur, hch, hl⟩ := propertyData_true h
  have hh : PropertyDataView.headerSize s = .ok hd.toNat := by
    unfold PropertyDataView.headerSize; rw [hhd]; rfl
  have hc : PropertyDataView.chunkSize s = .ok ch.toNat := by
    unfold PropertyDataView.chunkSize; rw [hh]
    simp only [ok_bind]
    rw [hch]; rfl
  refine ⟨h1, by omega, h2, NoFault.index (by omega), ⟨_, hh⟩, ?_, ?_, ?_, ⟨_, hc⟩, ?_⟩
  · unfold PropertyDataView.header; rw [hh]; exact NoFault.slice (by omega)
  · unfold PropertyDataView.numberOfChunks; rw [hh]; exact ⟨num, hnum⟩
  · unfold PropertyDataView.numberOfThisChunk; rw [hh]; exact ⟨cur, hcur⟩
  · unfold PropertyDataView.chunk; rw [hh, hc]; exact NoFault.slice (by omega)

/-- C39: all property data messages. -/
theorem C39_property_data (s : Sysex) : ViewSafe PropertyDataView.validate s (Spec.PropertyDataSafe s) :=
  viewSafe_of (propertyData_noFault s) propertyData_safe

theorem propertyData_sub {s : Sysex} {c : Except Fault Bool} (hc : 2 < s.data.length → NoFault c) :
    NoFault (PropertyDataView.validate s &&! c) := by
  refine NoFault.and (propertyData_noFault s) fun h => hc ?_
  obtain ⟨-, -, -, h3, -⟩ := propertyData_true h
  omega

/-- C39: get property data. -/
theorem C39_get_property_data (s : Sysex) : ViewSafe GetPropertyDataView.validate s (Spec.PropertyDataSafe s) :=
  viewSafe_of (propertyData_sub fun h => NoFault.or (NoFault.dataAt h) (NoFault.dataAt h))
    fun h => propertyData_safe (andThen_true.1 h).1

/-- C39: set property data. -/
theorem C39_set_property_data (s : Sysex) : ViewSafe SetPropertyDataView.validate s (Spec.PropertyDataSafe s) :=
  viewSafe_of (propertyData_sub fun h => NoFault.or (NoFault.dataAt h) (NoFault.dataAt h))
    fun h => propertyData_safe (andThen_true.1 h).1

/-- C39: subscription. -/
theorem C39_subscription (s : Sysex) : ViewSafe SubscriptionView.validate s (Spec.PropertyDataSafe s) :=
  viewSafe_of (propertyData_sub fun h => NoFault.or (NoFault.dataAt h) (NoFault.dataAt h))
    fun h => propertyData_safe (andThen_true.1 h).1

/-- C39: notify. -/
theorem C39_notify (s : Sysex) : ViewSafe NotifyView.validate s (Spec.PropertyDataSafe s) :=
  viewSafe_of (propertyData_sub fun h => NoFault.dataAt h) fun h => propertyData_safe (andThen_true.1 h).1

/-- C39: process inquiry capabilities reply. -/
theorem C39_process_inquiry_capabilities_reply (s : Sysex) :
    ViewSafe ProcessInquiryCapabilitiesReplyView.validate s
      (NoFault (ProcessInquiryCapabilitiesReplyView.supportedFeatures s)) := by
  refine viewSafe_of (by unfold ProcessInquiryCapabilitiesReplyView.validate; ci_nofault) fun h => ?_
  simp only [ProcessInquiryCapabilitiesReplyView.validate, andThen_true, isNonRealtime_true, sizeAtLeast_true] at h
  exact ⟨h.1, by omega, eq_of_dataAt h.2.2.1, NoFault.index (by omega)⟩

/-- C39: MIDI message report inquiry. -/
theorem C39_midi_message_report_inquiry (s : Sysex) : ViewSafe MidiMessageReportInquiryView.validate s
    (NoFault (MidiMessageReportInquiryView.messageDataControl s) ∧
      NoFault (MidiMessageReportInquiryView.systemMessageTypes s) ∧
      NoFault (MidiMessageReportInquiryView.channelControllerMessageTypes s) ∧
      NoFault (MidiMessageReportInquiryView.noteDataMessageTypes s)) := by
  refine viewSafe_of (by unfold MidiMessageReportInquiryView.validate; ci_nofault) fun h => ?_
  simp only [MidiMessageReportInquiryView.validate, andThen_true, isNonRealtime_true, sizeAtLeast_true] at h
  exact ⟨h.1, by omega, eq_of_dataAt h.2.2.1, NoFault.index (by omega), NoFault.index (by omega),
    NoFault.index (by omega), NoFault.index (by omega)⟩

/-- C39: MIDI message report reply. -/
theorem C39_midi_message_report_reply (s : Sysex) : ViewSafe MidiMessageReportReplyView.validate s
    (NoFault (MidiMessageReportReplyView.systemMessageTypes s) ∧
      NoFault (MidiMessageReportReplyView.channelControllerMessageTypes s) ∧
      NoFault (MidiMessageReportReplyView.noteDataMessageTypes s)) := by
  refine viewSafe_of (by unfold MidiMessageReportReplyView.validate; ci_nofault) fun h => ?_
  simp only [MidiMessageReportReplyView.validate, andThen_true, isNonRealtime_true, sizeAtLeast_true] at h
  exact ⟨h.1, by omega, eq_of_dataAt h.2.2.1, NoFault.index (by omega), NoFault.index (by omega),
    NoFault.index (by omega)⟩

/-! ## Discovery -/

theorem discovery_accessors {s : Sysex} {v : Byte} (hv : s.data[3]? = some v) {k : Nat} (hk : 1 ≤ k)
    (hl : 28 + (if v > 1 then k else 0) ≤ s.data.length) : NoFault (Discovery.identity s) ∧
      NoFault (Discovery.categories s) ∧ NoFault (Discovery.maximumMessageSize s) ∧
      NoFault (Discovery.outputPathId s) := by
  have h28 : 28 ≤ s.data.length := by omega
  refine ⟨NoFault.deviceIdentity (by omega), NoFault.index (by omega), NoFault.uint28 (by omega), ?_⟩
  refine NoFault.bind (x := index s.data 3) (NoFault.index (by omega)) fun w hw => ?_
  rw [index_iff, hv] at hw
  injection hw with hw
  subst hw
  by_cases h : v ≥ 2
  · rw [if_pos h]
    have h' : v > 1 := by
      show (1 : Byte) < v
      rw [ge_iff_le, BitVec.le_def, show (2 : Byte).toNat = 2 from rfl] at h
      rw [BitVec.lt_def, show (1 : Byte).toNat = 1 from rfl]
      omega
    rw [if_pos h'] at hl
    exact NoFault.index (by omega)
  · rw [if_neg h]; exact NoFault.ok _

/-- C39, discovery inquiry: only for messages with at least four bytes of data (or another manufacturer id). For shorter
ones see `C39_discovery_validate_reads_outside`. -/
theorem C39_discovery_inquiry_partial (s : Sysex) (h : 4 ≤ s.data.length ∨ s.manufacturerID ≠ 0x7E0000) :
    ViewSafe DiscoveryInquiryView.validate s (NoFault (Discovery.identity s) ∧ NoFault (Discovery.categories s) ∧
      NoFault (Discovery.maximumMessageSize s) ∧ NoFault (Discovery.outputPathId s)) := by
  refine viewSafe_of ?_ fun h => ?_
  · refine NoFault.and (NoFault.ok _) fun h1 => ?_
    rw [isNonRealtime_true] at h1
    have h4 : 4 ≤ s.data.length := by
      rcases h with h | h
      · exact h
      · exact absurd h1 h
    refine NoFault.and (NoFault.map _ (NoFault.index (by omega))) fun _ => ?_
    exact NoFault.and (NoFault.dataAt (by omega)) fun _ => NoFault.dataAt (by omega)
  · simp only [DiscoveryInquiryView.validate, andThen_true, isNonRealtime_true, map_true, decide_eq_true_eq] at h
    obtain ⟨h1, ⟨v, hv, hl⟩, h3, -⟩ := h
    exact ⟨h1, by omega, eq_of_dataAt h3, discovery_accessors (index_iff.1 hv) (by omega) hl⟩

example := C39_discovery_inquiry_partial ⟨0x7E0000, [0x10, 0x0D, 0x70, 2, 1, 2, 3]⟩ (by decide)

/-- C39, discovery reply: only for messages with at least four bytes of data (or another manufacturer id). -/
theorem C39_discovery_reply_partial (s : Sysex) (h : 4 ≤ s.data.length ∨ s.manufacturerID ≠ 0x7E0000) :
    ViewSafe DiscoveryReplyView.validate s (NoFault (Discovery.identity s) ∧ NoFault (Discovery.categories s) ∧
      NoFault (Discovery.maximumMessageSize s) ∧ NoFault (Discovery.outputPathId s) ∧
      NoFault (DiscoveryReplyView.functionBlock s)) := by
  refine viewSafe_of ?_ fun h => ?_
  · refine NoFault.and (NoFault.ok _) fun h1 => ?_
    rw [isNonRealtime_true] at h1
    have h4 : 4 ≤ s.data.length := by
      rcases h with h | h
      · exact h
      · exact absurd h1 h
    refine NoFault.and (NoFault.map _ (NoFault.index (by omega))) fun _ => ?_
    exact NoFault.and (NoFault.dataAt (by omega)) fun _ => NoFault.dataAt (by omega)
  · simp only [DiscoveryReplyView.validate, andThen_true, isNonRealtime_true, map_true, decide_eq_true_eq] at h
    obtain ⟨h1, ⟨v, hv, hl⟩, h3, -⟩ := h
    obtain ⟨a, b, c, d⟩ := discovery_accessors (index_iff.1 hv) (by omega) hl
    refine ⟨h1, by omega, eq_of_dataAt h3, a, b, c, d, ?_⟩
    refine NoFault.bind (x := index s.data 3) (NoFault.index (by omega)) fun w hw => ?_
    rw [hv] at hw
    injection hw with hw
    subst hw
    by_cases h : v ≥ 2
    · rw [if_pos h]
      have h' : v > 1 := by
        show (1 : Byte) < v
        rw [ge_iff_le, BitVec.le_def, show (2 : Byte).toNat = 2 from rfl] at h
        rw [BitVec.lt_def, show (1 : Byte).toNat = 1 from rfl]
        omega
      rw [if_pos h'] at hl
      exact NoFault.index (by omega)
    · rw [if_neg h]; exact NoFault.ok _

/-- C39 fails for the discovery views: for every universal non real time message with less than four bytes of data
`validate` reads behind the end of the data. -/
theorem C39_discovery_validate_reads_outside (s : Sysex) (hid : s.manufacturerID = 0x7E0000)
    (h : s.data.length < 4) : DiscoveryInquiryView.validate s = .error .outOfBounds ∧
      DiscoveryReplyView.validate s = .error .outOfBounds ∧
      asView DiscoveryInquiryView.validate s = .error .outOfBounds := by
  have h3 : index s.data 3 = .error .outOfBounds := by unfold index; rw [dif_neg (by omega)]
  have h1 : isNonRealtime s = .ok true := isNonRealtime_true.2 hid
  have hi : DiscoveryInquiryView.validate s = .error .outOfBounds := by
    unfold DiscoveryInquiryView.validate; rw [h1, h3]; rfl
  refine ⟨hi, ?_, ?_⟩
  · unfold DiscoveryReplyView.validate; rw [h1, h3]; rfl
  · unfold asView; rw [hi]; rfl

/-! Concrete messages that the views accept: the conclusions about accessors are not empty. -/

example : AckView.validate ⟨0x7E0000, [0x7F, 0x0D, 0x7D, 2, 1, 2, 3, 4, 5, 6, 7, 8, 0x34, 1, 2, 0, 0, 0, 0, 0, 2, 0,
    0x4F, 0x4B]⟩ = .ok true := by rfl
example : ProfileInquiryReplyView.validate ⟨0x7E0000, [0x7F, 0x0D, 0x21, 2, 1, 2, 3, 4, 5, 6, 7, 8, 1, 0, 1, 2, 3, 4, 5,
    0, 0]⟩ = .ok true := by rfl
example : GetPropertyDataView.validate ⟨0x7E0000, [0x7F, 0x0D, 0x34, 2, 1, 2, 3, 4, 5, 6, 7, 8, 9, 1, 0, 0x7B,
    1, 0, 1, 0, 0, 0]⟩ = .ok true := by rfl
example : DiscoveryInquiryView.validate ⟨0x7E0000, [0x7F, 0x0D, 0x70, 1, 1, 2, 3, 4, 0x7F, 0x7F, 0x7F, 0x7F,
    0, 0x21, 9, 1, 0, 2, 0, 3, 0, 0, 0, 4, 0, 1, 0, 0]⟩ = .ok true := by rfl
example : (Sysex.mk 0x7E0000 [0x7F, 0x06, 0x01]).data.length < 4 := by decide

end CI

end Midi
