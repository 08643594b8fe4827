import Verif.Lemmas.RemakeCI

/-!
# C90: profile configuration, property exchange and process inquiry messages are made again from what is read from them

See Verif.Props.RemakeCI.
-/

namespace Midi
open Spec UniversalSysex CI

/-! ## Profiles -/

/-- C90: `make_profile_inquiry_message`. -/
theorem C90_profile_inquiry (s : Sysex) (h : ProfileInquiryView.validate s = .ok true) (h7 : ∀ b ∈ s.data, b.toNat < 128) :
    ∃ m, (do
        makeProfileInquiry (← View.sourceMuid s) (← View.destinationMuid s) (← UniversalSysex.View.deviceId s)) = .ok m ∧
      SameBut 12 [(3, 2)] s m := by
  obtain ⟨v, st, dev, src, dst, p, rfl, hst, hp, hv7, hdev, hs, hd, h7p⟩ := ci_split ((C55_profile_inquiry s).1 h) h7
  rw [List.mem_singleton] at hst
  subst hst
  refine ⟨msg 2 0x20 dev src dst [], ?_, same_header (p := []) (rest := p) rfl (by decide) header2⟩
  rw [(reads hs hd).1, ok_bind, (reads hs hd).2.1, ok_bind, (reads hs hd).2.2, ok_bind]
  exact makeMessage_eq (by decide) hs hd hdev

/-- The bytes of profiles can be any bytes. -/
theorem profiles_exist (n : Nat) (l : List Byte) (hl : l.length = 5 * n) :
    ∃ ps : List ProfileId, ps.length = n ∧ Spec.profileBytes ps = l := by
  induction n generalizing l with
  | zero => exact ⟨[], rfl, (List.length_eq_zero_iff.1 (by omega)).symm⟩
  | succ n ih =>
    obtain ⟨a, r, rfl, ha⟩ := cut 5 (l := l) (by omega)
    obtain ⟨ps, h1, h2⟩ := ih r (by simp at hl; omega)
    match a, ha with
    | [x1, x2, x3, x4, x5], _ =>
      refine ⟨⟨x1, x2, x3, x4, x5⟩ :: ps, by simp [h1], ?_⟩
      rw [Spec.profileBytes, List.flatMap_cons, ← Spec.profileBytes, h2]
      rfl

theorem profiles_seven {ps : List ProfileId} (h : Spec.Seven (Spec.profileBytes ps)) : ∀ p ∈ ps, Spec.Seven p.bytes := by
  intro p hp b hb
  exact h b (by rw [Spec.profileBytes, List.mem_flatMap]; exact ⟨p, hp, hb⟩)

/-- C90: `make_profile_inquiry_reply`. -/
theorem C90_profile_inquiry_reply (s : Sysex) (h : ProfileInquiryReplyView.validate s = .ok true)
    (h7 : ∀ b ∈ s.data, b.toNat < 128) :
    ∃ m n k, (do
        makeProfileInquiryReply (← View.sourceMuid s) (← View.destinationMuid s) (← ProfileInquiryReplyView.enabled s)
          (← ProfileInquiryReplyView.disabled s) (← UniversalSysex.View.deviceId s)) = .ok m ∧
      ProfileInquiryReplyView.numEnabled s = .ok n ∧ ProfileInquiryReplyView.numDisabled s = .ok k ∧
      SameBut (16 + 5 * (n.toNat + k.toNat)) [(3, 2)] s m := by
  obtain ⟨v, st, dev, src, dst, p, rfl, hst, ⟨n, eb, k, db, rest, rfl, hn, hk, he, hdi⟩, hv7, hdev, hs, hd, h7p⟩ :=
    ci_split ((C55_profile_inquiry_reply s h7).1 h) h7
  rw [List.mem_singleton] at hst
  subst hst
  obtain ⟨E, rfl, rfl⟩ := profiles_exist n eb he
  obtain ⟨D, rfl, rfl⟩ := profiles_exist k db hdi
  have eE : (BitVec.ofNat 16 E.length).toNat = E.length := by rw [BitVec.toNat_ofNat]; omega
  have eD : (BitVec.ofNat 16 D.length).toNat = D.length := by rw [BitVec.toNat_ofNat]; omega
  have sE : ∀ p ∈ E, Spec.Seven p.bytes := profiles_seven (seven_right (seven_left (seven_left (seven_left h7p))))
  have sD : ∀ p ∈ D, Spec.Seven p.bytes := profiles_seven (seven_right (seven_left h7p))
  generalize hM : msg v 0x21 dev src dst (le7 2 E.length ++ Spec.profileBytes E ++ le7 2 D.length ++ Spec.profileBytes D ++ rest) = M
  have d12 : M.data.drop 12 = le7 2 E.length ++ (Spec.profileBytes E ++ (le7 2 D.length ++ (Spec.profileBytes D ++ rest))) := by
    rw [← hM]; simp only [List.append_assoc]; rfl
  have u12 : M.makeUint14 12 = .ok (BitVec.ofNat 16 E.length) := read14_ofNat hn d12
  have off : ProfileInquiryReplyView.offsetOfDisabled M = .ok (14 + E.length * 5) := by
    unfold ProfileInquiryReplyView.offsetOfDisabled
    rw [u12, ok_bind, eE]; rfl
  have d14 : M.data.drop (14 + E.length * 5) = le7 2 D.length ++ (Spec.profileBytes D ++ rest) := by
    rw [show 14 + E.length * 5 = 12 + (2 + 5 * E.length) by omega, ← List.drop_drop, d12, ← List.drop_drop]
    have : (le7 2 E.length ++ (Spec.profileBytes E ++ (le7 2 D.length ++ (Spec.profileBytes D ++ rest)))).drop 2 =
      Spec.profileBytes E ++ (le7 2 D.length ++ (Spec.profileBytes D ++ rest)) := rfl
    rw [this, List.drop_append, List.drop_eq_nil_of_le (by rw [profileBytes_length]), profileBytes_length]
    simp
  refine ⟨msg 2 0x21 dev src dst (le7 2 E.length ++ Spec.profileBytes E ++ le7 2 D.length ++ Spec.profileBytes D),
    _, BitVec.ofNat 16 D.length, ?_, u12, ?_, ?_⟩
  · rw [show View.sourceMuid M = .ok src by rw [← hM]; exact (reads hs hd).1, ok_bind,
      show View.destinationMuid M = .ok dst by rw [← hM]; exact (reads hs hd).2.1, ok_bind,
      show ProfileInquiryReplyView.enabled M = .ok E from readProfileList hn d12, ok_bind,
      show ProfileInquiryReplyView.disabled M = .ok D by
        unfold ProfileInquiryReplyView.disabled; rw [off, ok_bind]; exact readProfileList hk d14, ok_bind,
      show UniversalSysex.View.deviceId M = .ok dev by rw [← hM]; rfl, ok_bind]
    unfold makeProfileInquiryReply makeProfileInquiryReplyN
    rw [assert_ok (by rw [decide_eq_true_eq, BitVec.le_def, eE]; show _ ≤ 16383; omega), ok_bind,
      assert_ok (by rw [decide_eq_true_eq, BitVec.le_def, eD]; show _ ≤ 16383; omega), ok_bind, makeWithPayload_eq, ok_bind,
      msg_add14n _ hn, ok_bind, eE, msg_addProfiles _ _ (Nat.le_refl _) (by rw [List.take_length]; exact sE), ok_bind,
      msg_add14n _ hk, ok_bind, eD, msg_addProfiles _ _ (Nat.le_refl _) (by rw [List.take_length]; exact sD)]
    simp only [List.take_length, List.nil_append, List.append_assoc]
  · unfold ProfileInquiryReplyView.numDisabled
    rw [off, ok_bind]; exact read14_ofNat hk d14
  · rw [← hM, eE, eD]
    refine same_header ?_ (by decide) header2
    simp only [List.length_append, le7_length, profileBytes_length]; omega

/-- A profile, and what follows. -/
theorem profile_payload {p : List Byte} (k : Nat) (h : 5 + k ≤ p.length) (h7 : Spec.Seven p) :
    ∃ (i : ProfileId) (more rest : List Byte), Spec.Seven i.bytes ∧ Spec.Seven more ∧ more.length = k ∧ p = i.bytes ++ more ++ rest := by
  obtain ⟨a, r, rfl, ha⟩ := cut 5 (l := p) (by omega)
  obtain ⟨m, r, rfl, hm⟩ := cut k (l := r) (by simp at h; omega)
  match a, ha with
  | [x1, x2, x3, x4, x5], _ =>
    exact ⟨⟨x1, x2, x3, x4, x5⟩, m, r, seven_left h7, seven_left (seven_right h7), hm, by simp only [List.append_assoc]; rfl⟩

/-- What is read from the messages about a profile with a number of channels. -/
theorem profile_again {st : Byte} {s : Sysex} (h : ProfileDestinationView.validate s = .ok true) (h7 : ∀ b ∈ s.data, b.toNat < 128)
    (hst : UniversalSysex.View.subtype s = .ok st) :
    ∃ (v : Byte) (src dst : Word) (i : ProfileId) (d : ProfileDestination) (rest : List Byte), U28 src ∧ U28 dst ∧
      Spec.Seven i.bytes ∧ U14 d.numChannels ∧ s = msg v st d.scope src dst (i.bytes ++ le7 2 d.numChannels.toNat ++ rest) ∧
      View.sourceMuid s = .ok src ∧ View.destinationMuid s = .ok dst ∧ ProfileIdView.profile s = .ok i ∧
      ProfileDestinationView.params s = .ok d := by
  obtain ⟨v, st', dev, src, dst, p, rfl, -, hp, hv7, hdev, hs, hd, h7p⟩ := ci_split ((C55_profile_destination s).1 h) h7
  obtain ⟨i, more, rest, hi, hm, hml, rfl⟩ := profile_payload 2 hp h7p
  obtain ⟨n, hn, rfl⟩ := digits14 more hm hml
  have : st' = st := by
    have e : UniversalSysex.View.subtype (msg v st' dev src dst (i.bytes ++ le7 2 n.toNat ++ rest)) = .ok st' := by
      unfold UniversalSysex.View.subtype; rw [if_pos (by rw [msg_length]; omega)]; rfl
    rw [e] at hst; injection hst
  subst this
  refine ⟨v, src, dst, i, ⟨dev, n⟩, rest, hs, hd, hi, hn, rfl, (reads hs hd).1, (reads hs hd).2.1,
    readProfile (c := le7 2 n.toNat ++ rest) (by simp only [List.append_assoc]; rfl), ?_⟩
  unfold ProfileDestinationView.params ProfileDestinationView.numChannels
  rw [read14 (v := n) (c := rest) hn (by simp only [List.append_assoc]; rfl)]
  rfl

/-- C90: `make_profile_on_request`. -/
theorem C90_profile_on (s : Sysex) (h : ProfileDestinationView.validate s = .ok true) (h7 : ∀ b ∈ s.data, b.toNat < 128)
    (hst : UniversalSysex.View.subtype s = .ok 0x22) :
    ∃ m, (do
        makeProfileOn (← View.sourceMuid s) (← View.destinationMuid s) (← ProfileIdView.profile s)
          (← ProfileDestinationView.params s)) = .ok m ∧ SameBut 19 [(3, 2)] s m := by
  obtain ⟨v, src, dst, i, d, rest, hs, hd, hi, hn, e, h1, h2, h3, h4⟩ := profile_again h h7 hst
  refine ⟨msg 2 0x22 d.scope src dst (i.bytes ++ le7 2 d.numChannels.toNat), ?_, by
    rw [e]; exact same_header rfl (by decide) header2⟩
  rw [h1, ok_bind, h2, ok_bind, h3, ok_bind, h4, ok_bind]
  unfold makeProfileOn
  rw [makeWithPayload_eq, ok_bind, msg_addData _ (by simp [ProfileId.bytes]), ok_bind, msg_add14 _ hn, List.nil_append]

/-- C90: `make_profile_off_request`, which has no number of channels. -/
theorem C90_profile_off (s : Sysex) (h : ProfileDestinationView.validate s = .ok true) (h7 : ∀ b ∈ s.data, b.toNat < 128)
    (hst : UniversalSysex.View.subtype s = .ok 0x23) :
    ∃ m, (do
        makeProfileOff (← View.sourceMuid s) (← View.destinationMuid s) (← ProfileIdView.profile s)
          (← ProfileDestinationView.params s)) = .ok m ∧ SameBut 19 [(3, 2), (17, 0), (18, 0)] s m := by
  obtain ⟨v, src, dst, i, d, rest, hs, hd, hi, hn, e, h1, h2, h3, h4⟩ := profile_again h h7 hst
  refine ⟨msg 2 0x23 d.scope src dst (i.bytes ++ [0, 0]), ?_, ?_⟩
  · rw [h1, ok_bind, h2, ok_bind, h3, ok_bind, h4, ok_bind]
    unfold makeProfileOff
    rw [makeWithPayload_eq, ok_bind, msg_addData _ (by simp [ProfileId.bytes]), ok_bind, msg_add14 _ (by decide), List.nil_append]
    rfl
  · rw [e]
    refine sameBut_msg rfl rfl ?_ ?_
    · intro i hi; interval_cases i <;> rfl
    · intro j hj
      have : j < 7 := by simpa [ProfileId.bytes, le7_length] using hj
      interval_cases j <;> rfl

/-- C90: `make_profile_enabled_notification`. -/
theorem C90_profile_enabled (s : Sysex) (h : ProfileDestinationView.validate s = .ok true) (h7 : ∀ b ∈ s.data, b.toNat < 128)
    (hst : UniversalSysex.View.subtype s = .ok 0x24) :
    ∃ m, (do
        makeProfileEnabled (← View.sourceMuid s) (← View.destinationMuid s) (← ProfileIdView.profile s)
          (← ProfileDestinationView.params s)) = .ok m ∧ SameBut 19 [(3, 2)] s m := by
  obtain ⟨v, src, dst, i, d, rest, hs, hd, hi, hn, e, h1, h2, h3, h4⟩ := profile_again h h7 hst
  refine ⟨msg 2 0x24 d.scope src dst (i.bytes ++ le7 2 d.numChannels.toNat), ?_, by
    rw [e]; exact same_header rfl (by decide) header2⟩
  rw [h1, ok_bind, h2, ok_bind, h3, ok_bind, h4, ok_bind]
  unfold makeProfileEnabled
  rw [makeWithPayload_eq, ok_bind, msg_addData _ (by simp [ProfileId.bytes]), ok_bind, msg_add14 _ hn, List.nil_append]

/-- C90: `make_profile_disabled_notification`. -/
theorem C90_profile_disabled (s : Sysex) (h : ProfileDestinationView.validate s = .ok true) (h7 : ∀ b ∈ s.data, b.toNat < 128)
    (hst : UniversalSysex.View.subtype s = .ok 0x25) :
    ∃ m, (do
        makeProfileDisabled (← View.sourceMuid s) (← View.destinationMuid s) (← ProfileIdView.profile s)
          (← ProfileDestinationView.params s)) = .ok m ∧ SameBut 19 [(3, 2)] s m := by
  obtain ⟨v, src, dst, i, d, rest, hs, hd, hi, hn, e, h1, h2, h3, h4⟩ := profile_again h h7 hst
  refine ⟨msg 2 0x25 d.scope src dst (i.bytes ++ le7 2 d.numChannels.toNat), ?_, by
    rw [e]; exact same_header rfl (by decide) header2⟩
  rw [h1, ok_bind, h2, ok_bind, h3, ok_bind, h4, ok_bind]
  unfold makeProfileDisabled
  rw [makeWithPayload_eq, ok_bind, msg_addData _ (by simp [ProfileId.bytes]), ok_bind, msg_add14 _ hn, List.nil_append]

/-- What is read from the messages about a profile. -/
theorem profile_id_again {st : Byte} {s : Sysex} (h : ProfileIdView.validate s = .ok true) (h7 : ∀ b ∈ s.data, b.toNat < 128)
    (hst : UniversalSysex.View.subtype s = .ok st) :
    ∃ (v dev : Byte) (src dst : Word) (i : ProfileId) (rest : List Byte), U28 src ∧ U28 dst ∧
      Spec.Seven i.bytes ∧ s = msg v st dev src dst (i.bytes ++ rest) ∧
      View.sourceMuid s = .ok src ∧ View.destinationMuid s = .ok dst ∧ ProfileIdView.profile s = .ok i ∧
      UniversalSysex.View.deviceId s = .ok dev := by
  obtain ⟨v, st', dev, src, dst, p, rfl, -, hp, hv7, hdev, hs, hd, h7p⟩ := ci_split ((C55_profile_id s).1 h) h7
  obtain ⟨i, more, rest, hi, hm, hml, rfl⟩ := profile_payload 0 hp h7p
  rw [List.length_eq_zero_iff.1 hml, List.append_nil] at *
  have : st' = st := by
    have e : UniversalSysex.View.subtype (msg v st' dev src dst (i.bytes ++ rest)) = .ok st' := by
      unfold UniversalSysex.View.subtype; rw [if_pos (by rw [msg_length]; omega)]; rfl
    rw [e] at hst; injection hst
  subst this
  exact ⟨v, dev, src, dst, i, rest, hs, hd, hi, rfl, (reads hs hd).1, (reads hs hd).2.1, readProfile (c := rest) rfl, rfl⟩

/-- C90: `make_profile_added_notification`. -/
theorem C90_profile_added (s : Sysex) (h : ProfileIdView.validate s = .ok true) (h7 : ∀ b ∈ s.data, b.toNat < 128)
    (hst : UniversalSysex.View.subtype s = .ok 0x26) :
    ∃ m, (do
        makeProfileAdded (← View.sourceMuid s) (← View.destinationMuid s) (← ProfileIdView.profile s)
          (← UniversalSysex.View.deviceId s)) = .ok m ∧ SameBut 17 [(3, 2)] s m := by
  obtain ⟨v, dev, src, dst, i, rest, hs, hd, hi, e, h1, h2, h3, h4⟩ := profile_id_again h h7 hst
  refine ⟨msg 2 0x26 dev src dst i.bytes, ?_, by rw [e]; exact same_header rfl (by decide) header2⟩
  rw [h1, ok_bind, h2, ok_bind, h3, ok_bind, h4, ok_bind]
  unfold makeProfileAdded
  rw [makeWithPayload_eq, ok_bind, msg_addData _ (by simp [ProfileId.bytes]), List.nil_append]

/-- C90: `make_profile_removed_notification`. -/
theorem C90_profile_removed (s : Sysex) (h : ProfileIdView.validate s = .ok true) (h7 : ∀ b ∈ s.data, b.toNat < 128)
    (hst : UniversalSysex.View.subtype s = .ok 0x27) :
    ∃ m, (do
        makeProfileRemoved (← View.sourceMuid s) (← View.destinationMuid s) (← ProfileIdView.profile s)
          (← UniversalSysex.View.deviceId s)) = .ok m ∧ SameBut 17 [(3, 2)] s m := by
  obtain ⟨v, dev, src, dst, i, rest, hs, hd, hi, e, h1, h2, h3, h4⟩ := profile_id_again h h7 hst
  refine ⟨msg 2 0x27 dev src dst i.bytes, ?_, by rw [e]; exact same_header rfl (by decide) header2⟩
  rw [h1, ok_bind, h2, ok_bind, h3, ok_bind, h4, ok_bind]
  unfold makeProfileRemoved
  rw [makeWithPayload_eq, ok_bind, msg_addData _ (by simp [ProfileId.bytes]), List.nil_append]

/-- C90: `make_profile_details_inquiry`. -/
theorem C90_profile_details_inquiry (s : Sysex) (h : ProfileDetailsInquiryView.validate s = .ok true)
    (h7 : ∀ b ∈ s.data, b.toNat < 128) :
    ∃ m, (do
        makeProfileDetailsInquiry (← View.sourceMuid s) (← View.destinationMuid s) (← ProfileDetailsInquiryView.profile s)
          (← ProfileDetailsInquiryView.target s) (← UniversalSysex.View.deviceId s)) = .ok m ∧ SameBut 18 [(3, 2)] s m := by
  obtain ⟨v, st, dev, src, dst, p, rfl, hst, hp, hv7, hdev, hs, hd, h7p⟩ := ci_split ((C55_profile_details_inquiry s).1 h) h7
  rw [List.mem_singleton] at hst
  subst hst
  obtain ⟨i, more, rest, hi, hm, hml, rfl⟩ := profile_payload 1 hp h7p
  match more, hml with
  | [t], _ =>
    refine ⟨msg 2 0x28 dev src dst (i.bytes ++ [t]), ?_, same_header rfl (by decide) header2⟩
    rw [(reads hs hd).1, ok_bind, (reads hs hd).2.1, ok_bind, show ProfileDetailsInquiryView.profile _ = .ok i from
      readProfile (c := [t] ++ rest) (by simp only [List.append_assoc]; rfl), ok_bind,
      show ProfileDetailsInquiryView.target _ = .ok t from rfl, ok_bind, (reads hs hd).2.2, ok_bind]
    unfold makeProfileDetailsInquiry
    rw [makeWithPayload_eq, ok_bind, msg_addData _ (by simp [ProfileId.bytes]), ok_bind, msg_add7 _ (hm t (by simp)),
      List.nil_append]

/-- C90: `make_profile_details_reply`. -/
theorem C90_profile_details_reply (s : Sysex) (h : ProfileDetailsReplyView.validate s = .ok true)
    (h7 : ∀ b ∈ s.data, b.toNat < 128) :
    ∃ m n, (do
        makeProfileDetailsReply (← View.sourceMuid s) (← View.destinationMuid s) (← ProfileDetailsReplyView.profile s)
          (← ProfileDetailsReplyView.target s) (← ProfileDetailsReplyView.data s) (← UniversalSysex.View.deviceId s)) = .ok m ∧
      ProfileDetailsReplyView.dataLength s = .ok n ∧ SameBut (20 + n.toNat) [(3, 2)] s m := by
  obtain ⟨v, st, dev, src, dst, p, rfl, hst, ⟨a, data, rest, rfl, ha, hl⟩, hv7, hdev, hs, hd, h7p⟩ :=
    ci_split ((C55_profile_details_reply s h7).1 h) h7
  rw [List.mem_singleton] at hst
  subst hst
  match a, ha with
  | [x1, x2, x3, x4, x5, t], _ =>
    have e : (BitVec.ofNat 16 data.length).toNat = data.length := by rw [BitVec.toNat_ofNat]; omega
    generalize hM : msg v 0x29 dev src dst ([x1, x2, x3, x4, x5, t] ++ le7 2 data.length ++ data ++ rest) = M
    have hlen : ProfileDetailsReplyView.dataLength M = .ok (BitVec.ofNat 16 data.length) :=
      read14_ofNat (c := data ++ rest) hl (by rw [← hM]; simp only [List.append_assoc]; rfl)
    have hdata : ProfileDetailsReplyView.data M = .ok data := by
      unfold ProfileDetailsReplyView.data
      rw [hlen, ok_bind, e]
      exact readSlice (c := rest) (by rw [← hM]; ci_len) (by rw [← hM]; simp only [List.append_assoc]; rfl) rfl
    refine ⟨msg 2 0x29 dev src dst ([x1, x2, x3, x4, x5, t] ++ le7 2 data.length ++ data), _, ?_, hlen, ?_⟩
    · rw [show View.sourceMuid M = .ok src by rw [← hM]; exact (reads hs hd).1, ok_bind,
        show View.destinationMuid M = .ok dst by rw [← hM]; exact (reads hs hd).2.1, ok_bind,
        show ProfileDetailsReplyView.profile M = .ok ⟨x1, x2, x3, x4, x5⟩ by rw [← hM]; rfl, ok_bind,
        show ProfileDetailsReplyView.target M = .ok t by rw [← hM]; rfl, ok_bind, hdata, ok_bind,
        show UniversalSysex.View.deviceId M = .ok dev by rw [← hM]; rfl, ok_bind]
      unfold makeProfileDetailsReply
      rw [makeWithPayload_eq, ok_bind, msg_addData _ (by simp [ProfileId.bytes]), ok_bind, msg_add7 _ (h7p t (by simp)),
        ok_bind, msg_add14n _ hl, ok_bind, msg_append]
      simp only [List.nil_append, pure_eq_ok, ProfileId.bytes, List.cons_append]
    · rw [← hM, e]
      exact same_header (by simp [le7_length]; omega) (by decide) header2

/-- C90: `make_profile_specific_data_message` with pointer and size. -/
theorem C90_profile_specific_data (s : Sysex) (h : ProfileSpecificDataView.validate s = .ok true)
    (h7 : ∀ b ∈ s.data, b.toNat < 128) :
    ∃ m n, (do
        makeProfileSpecificData (← View.sourceMuid s) (← View.destinationMuid s) (← ProfileIdView.profile s)
          (← ProfileSpecificDataView.data s) (← UniversalSysex.View.deviceId s)) = .ok m ∧
      ProfileSpecificDataView.dataSize s = .ok n ∧ SameBut (21 + n) [(3, 2)] s m := by
  obtain ⟨v, st, dev, src, dst, p, rfl, hst, ⟨a, data, rest, rfl, ha, hl⟩, hv7, hdev, hs, hd, h7p⟩ :=
    ci_split ((C55_profile_specific_data s h7).1 h) h7
  rw [List.mem_singleton] at hst
  subst hst
  match a, ha with
  | [x1, x2, x3, x4, x5], _ =>
    have e : (BitVec.ofNat 32 data.length).toNat = data.length := by rw [BitVec.toNat_ofNat]; omega
    generalize hM : msg v 0x2F dev src dst ([x1, x2, x3, x4, x5] ++ le7 4 data.length ++ data ++ rest) = M
    have h28 : M.makeUint28 17 = .ok (BitVec.ofNat 32 data.length) :=
      read28 (c := data ++ rest) (by omega) (by rw [← hM, e]; simp only [List.append_assoc]; rfl)
    have hsz : ProfileSpecificDataView.dataSize M = .ok data.length := by
      unfold ProfileSpecificDataView.dataSize; rw [h28, ok_bind, e]; rfl
    have hdata : ProfileSpecificDataView.data M = .ok data := by
      unfold ProfileSpecificDataView.data
      rw [hsz, ok_bind]
      exact readSlice (c := rest) (by rw [← hM]; ci_len) (by rw [← hM]; simp only [List.append_assoc]; rfl) rfl
    refine ⟨msg 2 0x2F dev src dst ([x1, x2, x3, x4, x5] ++ le7 4 data.length ++ data), _, ?_, hsz, ?_⟩
    · rw [show View.sourceMuid M = .ok src by rw [← hM]; exact (reads hs hd).1, ok_bind,
        show View.destinationMuid M = .ok dst by rw [← hM]; exact (reads hs hd).2.1, ok_bind,
        show ProfileIdView.profile M = .ok ⟨x1, x2, x3, x4, x5⟩ by rw [← hM]; rfl, ok_bind, hdata, ok_bind,
        show UniversalSysex.View.deviceId M = .ok dev by rw [← hM]; rfl, ok_bind]
      unfold makeProfileSpecificData
      rw [makeWithPayload_eq, ok_bind, msg_addData _ (by simp [ProfileId.bytes]), ok_bind,
        msg_add28 _ (by rw [U28, e]; exact hl), ok_bind, e]
      by_cases h0 : data.length = 0
      · rw [if_neg (by omega), List.length_eq_zero_iff.1 h0]
        rfl
      · rw [if_pos h0, msg_addData _ h0]
        simp only [List.nil_append, List.append_assoc, ProfileId.bytes]
    · rw [← hM]
      exact same_header (by simp [le7_length]; omega) (by decide) header2

/-- Messages the theorems about profiles are about. -/
example :
    (let s : Sysex := ⟨0x7E0000, [0x10, 0x0D, 0x20, 2, 1, 2, 3, 4, 5, 6, 7, 8]⟩
     ProfileInquiryView.validate s = .ok true ∧ (∀ b ∈ s.data, b.toNat < 128)) ∧
    (let s : Sysex := ⟨0x7E0000, [0x10, 0x0D, 0x21, 1, 1, 2, 3, 4, 5, 6, 7, 8, 1, 0, 0x7E, 1, 2, 3, 4, 2, 0, 0x7E, 1, 2, 3, 4, 0x7E, 1, 2, 3, 4]⟩
     ProfileInquiryReplyView.validate s = .ok true ∧ (∀ b ∈ s.data, b.toNat < 128)) ∧
    (let s : Sysex := ⟨0x7E0000, [0x10, 0x0D, 0x28, 2, 1, 2, 3, 4, 5, 6, 7, 8, 0x7E, 1, 2, 3, 4, 1]⟩
     ProfileDetailsInquiryView.validate s = .ok true ∧ (∀ b ∈ s.data, b.toNat < 128)) ∧
    (let s : Sysex := ⟨0x7E0000, [0x10, 0x0D, 0x29, 2, 1, 2, 3, 4, 5, 6, 7, 8, 0x7E, 1, 2, 3, 4, 1, 2, 0, 0x41, 0x42, 0x43]⟩
     ProfileDetailsReplyView.validate s = .ok true ∧ (∀ b ∈ s.data, b.toNat < 128)) ∧
    (let s : Sysex := ⟨0x7E0000, [0x10, 0x0D, 0x2F, 2, 1, 2, 3, 4, 5, 6, 7, 8, 0x7E, 1, 2, 3, 4, 2, 0, 0, 0, 0x41, 0x42, 0x43]⟩
     ProfileSpecificDataView.validate s = .ok true ∧ (∀ b ∈ s.data, b.toNat < 128)) := by
  refine ⟨?_, ?_, ?_, ?_, ?_⟩
  all_goals exact ⟨by rfl, by decide⟩

/-- Messages of each type the theorems about changes of profiles are about. -/
example :
    (let s : Sysex := ⟨0x7E0000, [0x10, 0x0D, 0x22, 2, 1, 2, 3, 4, 5, 6, 7, 8, 0x7E, 1, 2, 3, 4, 3, 0]⟩
     ProfileDestinationView.validate s = .ok true ∧ (∀ b ∈ s.data, b.toNat < 128) ∧ UniversalSysex.View.subtype s = .ok 0x22) ∧
    (let s : Sysex := ⟨0x7E0000, [0x10, 0x0D, 0x23, 2, 1, 2, 3, 4, 5, 6, 7, 8, 0x7E, 1, 2, 3, 4, 3, 0]⟩
     ProfileDestinationView.validate s = .ok true ∧ (∀ b ∈ s.data, b.toNat < 128) ∧ UniversalSysex.View.subtype s = .ok 0x23) ∧
    (let s : Sysex := ⟨0x7E0000, [0x10, 0x0D, 0x24, 2, 1, 2, 3, 4, 5, 6, 7, 8, 0x7E, 1, 2, 3, 4, 3, 0]⟩
     ProfileDestinationView.validate s = .ok true ∧ (∀ b ∈ s.data, b.toNat < 128) ∧ UniversalSysex.View.subtype s = .ok 0x24) ∧
    (let s : Sysex := ⟨0x7E0000, [0x10, 0x0D, 0x25, 2, 1, 2, 3, 4, 5, 6, 7, 8, 0x7E, 1, 2, 3, 4, 3, 0]⟩
     ProfileDestinationView.validate s = .ok true ∧ (∀ b ∈ s.data, b.toNat < 128) ∧ UniversalSysex.View.subtype s = .ok 0x25) ∧
    (let s : Sysex := ⟨0x7E0000, [0x10, 0x0D, 0x26, 2, 1, 2, 3, 4, 5, 6, 7, 8, 0x7E, 1, 2, 3, 4]⟩
     ProfileIdView.validate s = .ok true ∧ (∀ b ∈ s.data, b.toNat < 128) ∧ UniversalSysex.View.subtype s = .ok 0x26) ∧
    (let s : Sysex := ⟨0x7E0000, [0x10, 0x0D, 0x27, 2, 1, 2, 3, 4, 5, 6, 7, 8, 0x7E, 1, 2, 3, 4]⟩
     ProfileIdView.validate s = .ok true ∧ (∀ b ∈ s.data, b.toNat < 128) ∧ UniversalSysex.View.subtype s = .ok 0x27) := by
  refine ⟨?_, ?_, ?_, ?_, ?_, ?_⟩
  all_goals exact ⟨by rfl, by decide, by rfl⟩

end Midi
