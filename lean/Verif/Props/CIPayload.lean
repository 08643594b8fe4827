import Verif.Props.CIFactory

/-!
# C41, C42, C43: MIDI-CI messages with lists and data
-/

namespace Midi
open Spec UniversalSysex CI

namespace CI

/-- Lengths of 65536 and more are cut to 16 bit, so the assertion that the length fits into 14 bit passes again: the
message contains all the data, but the view only the first bytes of it. -/
theorem C40_length_wraps (source dest : Word) (status : Byte) (data : List Byte) (n : Nat) (h : U7 status)
    (hn : n < 2 ^ 14) (hlen : data.length = 65536 + n) :
    ∃ m, makeEndpointInformationReply source dest status data = .ok m ∧
      EndpointInformationReplyView.validate m = .ok true ∧
      EndpointInformationReplyView.dataLength m = .ok (BitVec.ofNat 16 n) ∧
      EndpointInformationReplyView.data m = .ok (data.take n) := by
  have hl : EndpointInformationReplyView.dataLength (msg 2 0x73 0x7F source dest ([status] ++ (le7 2 n ++ data)))
      = .ok (BitVec.ofNat 16 n) := read14_ofNat (c := data) hn rfl
  have e : (BitVec.ofNat 16 n).toNat = n := by rw [BitVec.toNat_ofNat]; omega
  have e' : BitVec.ofNat 16 data.length = BitVec.ofNat 16 n := by
    apply BitVec.eq_of_toNat_eq; rw [BitVec.toNat_ofNat, BitVec.toNat_ofNat, hlen]; omega
  refine ⟨msg 2 0x73 0x7F source dest ([status] ++ (le7 2 n ++ data)), ?_, ?_, hl, ?_⟩
  · unfold makeEndpointInformationReply
    rw [makeWithPayload_eq, ok_bind, msg_add7 _ h, ok_bind, e', msg_add14n _ hn, ok_bind, msg_append]
    simp only [List.nil_append, List.append_assoc, pure_eq_ok]
  · ci_valid [EndpointInformationReplyView.validate]
    exact ⟨rfl, by ci_len, ⟨_, hl, by ci_len⟩, ⟨_, rfl, rfl⟩, _, rfl, rfl⟩
  · unfold EndpointInformationReplyView.data
    rw [hl, ok_bind, e]
    refine readSlice (c := data.drop n) (by ci_len) ?_ (by rw [List.length_take]; omega)
    rw [List.take_append_drop]
    rfl

example : (List.replicate 65537 (0 : Byte)).length = 65536 + 1 := List.length_replicate ..

/-! ## C41 -/

/-- The bytes of a list of profiles. -/
def Spec.profileBytes (ps : List ProfileId) : List Byte := ps.flatMap ProfileId.bytes

theorem profileBytes_length (ps : List ProfileId) : (Spec.profileBytes ps).length = 5 * ps.length := by
  induction ps with
  | nil => rfl
  | cons p ps ih =>
    rw [Spec.profileBytes, List.flatMap_cons, List.length_append, ← Spec.profileBytes, ih]
    simp [ProfileId.bytes]; omega

theorem profileBytes_seven {ps : List ProfileId} (h : ∀ p ∈ ps, Seven p.bytes) : Seven (Spec.profileBytes ps) := by
  intro b hb
  rw [Spec.profileBytes, List.mem_flatMap] at hb
  obtain ⟨p, hp, hb⟩ := hb
  exact h p hp b hb

theorem msg_addProfile {v st dev : Byte} {src dst : Word} {r : List Byte} {p : ProfileId} (h : Seven p.bytes) :
    addProfile (msg v st dev src dst r) p = .ok (msg v st dev src dst (r ++ p.bytes)) := by
  unfold addProfile
  rw [msg_add7 _ (h p.b1 (by simp [ProfileId.bytes])), ok_bind, msg_add7 _ (h p.b2 (by simp [ProfileId.bytes])), ok_bind,
    msg_add7 _ (h p.b3 (by simp [ProfileId.bytes])), ok_bind, msg_add7 _ (h p.b4 (by simp [ProfileId.bytes])), ok_bind,
    msg_add7 _ (h p.b5 (by simp [ProfileId.bytes]))]
  simp only [List.append_assoc, ProfileId.bytes, List.cons_append, List.nil_append]

theorem msg_addProfiles {v st dev : Byte} {src dst : Word} (ps : List ProfileId) (n : Nat) (hn : n ≤ ps.length)
    (h : ∀ p ∈ ps.take n, Seven p.bytes) (r : List Byte) :
    addProfiles (msg v st dev src dst r) n ps = .ok (msg v st dev src dst (r ++ Spec.profileBytes (ps.take n))) := by
  induction n generalizing ps r with
  | zero => simp [addProfiles, Spec.profileBytes]
  | succ n ih =>
    cases ps with
    | nil => simp at hn
    | cons p ps =>
      unfold addProfiles
      rw [msg_addProfile (h p (by simp)), ok_bind, ih ps (by simpa using hn) (fun q hq => h q (by simp [hq]))]
      simp only [List.take_succ_cons, Spec.profileBytes, List.flatMap_cons, List.append_assoc]

theorem readProfiles {s : Sysex} (ps : List ProfileId) (d : Nat) {c : List Byte}
    (h : s.data.drop d = Spec.profileBytes ps ++ c) : ProfileInquiryReplyView.profilesFrom s ps.length d = .ok ps := by
  induction ps generalizing d with
  | nil => rfl
  | cons p ps ih =>
    rw [Spec.profileBytes, List.flatMap_cons, List.append_assoc, ← Spec.profileBytes] at h
    rw [List.length_cons]
    unfold ProfileInquiryReplyView.profilesFrom
    rw [readProfile h, ok_bind, ih (d + 5) (by rw [← List.drop_drop, h]; rfl)]
    rfl

theorem readProfileList {s : Sysex} {ps : List ProfileId} {pos : Nat} {c : List Byte} (hn : ps.length < 2 ^ 14)
    (h : s.data.drop pos = le7 2 ps.length ++ (Spec.profileBytes ps ++ c)) :
    ProfileInquiryReplyView.makeProfiles s pos = .ok ps := by
  have e : (BitVec.ofNat 16 ps.length).toNat = ps.length := by rw [BitVec.toNat_ofNat]; omega
  have hlen := congrArg List.length h
  rw [List.length_drop, List.length_append, List.length_append, le7_length, profileBytes_length] at hlen
  unfold ProfileInquiryReplyView.makeProfiles
  rw [assert_ok (by rw [decide_eq_true_eq]; omega), ok_bind, read14_ofNat hn h, ok_bind, e,
    assert_ok (by rw [decide_eq_true_eq]; omega), ok_bind]
  refine readProfiles ps _ (c := c) ?_
  rw [← List.drop_drop, h, List.drop_append, le7_length, List.drop_eq_nil_of_le (by rw [le7_length])]
  rfl

theorem has_profiles (n : Nat) (hn : n < 2 ^ 14) :
    (((BitVec.ofNat 8 (n % 128) ||| BitVec.ofNat 8 (n / 128 % 128)) &&& 0x7F : Byte) != 0) = decide (n ≠ 0) := by
  have key : ∀ a b : BitVec 7, (((a.setWidth 8 ||| b.setWidth 8) &&& 0x7F : Byte) != 0) = decide (a ≠ 0 ∨ b ≠ 0) := by
    decide +kernel
  have e : ∀ k, (BitVec.ofNat 8 (k % 128) : Byte) = (BitVec.ofNat 7 k).setWidth 8 := by
    intro k
    apply BitVec.eq_of_toNat_eq
    rw [BitVec.toNat_setWidth, BitVec.toNat_ofNat, BitVec.toNat_ofNat]
    try omega
  rw [e, e, key]
  have z : ∀ k, (BitVec.ofNat 7 k = 0) ↔ k % 128 = 0 := by
    intro k
    constructor
    · intro h; have := congrArg BitVec.toNat h; simpa using this
    · intro h; apply BitVec.eq_of_toNat_eq; simpa using h
  rw [decide_eq_decide]
  rw [Ne, Ne, z, z]
  omega

/-- C41: `make_profile_inquiry_reply` with arrays: the message contains the given numbers of profiles, and the view returns
them. -/
theorem C41_profile_inquiry_reply_array (source dest : Word) (enabled : List ProfileId) (numEnabled : U16)
    (disabled : List ProfileId) (numDisabled : U16) (deviceId : Byte) (hs : U28 source) (hd : U28 dest)
    (hdev : U7 deviceId) (he : U14 numEnabled) (hdi : U14 numDisabled) (hel : numEnabled.toNat ≤ enabled.length)
    (hdl : numDisabled.toNat ≤ disabled.length) (he7 : ∀ p ∈ enabled.take numEnabled.toNat, Seven p.bytes)
    (hd7 : ∀ p ∈ disabled.take numDisabled.toNat, Seven p.bytes) :
    ∃ m, makeProfileInquiryReplyN source dest enabled numEnabled disabled numDisabled deviceId = .ok m ∧
      IsMessage m 2 0x21 deviceId source dest
        (le7 2 numEnabled.toNat ++ (Spec.profileBytes (enabled.take numEnabled.toNat) ++
          (le7 2 numDisabled.toNat ++ Spec.profileBytes (disabled.take numDisabled.toNat))))
        ["profile_inquiry_reply_view"] ∧
      ProfileInquiryReplyView.hasEnabled m = .ok (decide (numEnabled ≠ 0)) ∧
      ProfileInquiryReplyView.hasDisabled m = .ok (decide (numDisabled ≠ 0)) ∧
      ProfileInquiryReplyView.numEnabled m = .ok numEnabled ∧
      ProfileInquiryReplyView.numDisabled m = .ok numDisabled ∧
      ProfileInquiryReplyView.enabled m = .ok (enabled.take numEnabled.toNat) ∧
      ProfileInquiryReplyView.disabled m = .ok (disabled.take numDisabled.toNat) := by
  generalize hE : enabled.take numEnabled.toNat = E at *
  generalize hD : disabled.take numDisabled.toNat = D at *
  have lE : E.length = numEnabled.toNat := by rw [← hE, List.length_take]; omega
  have lD : D.length = numDisabled.toNat := by rw [← hD, List.length_take]; omega
  have le14 : ∀ v : U16, U14 v → decide (v ≤ 16383) = true := by
    intro v hv; rw [decide_eq_true_eq, BitVec.le_def, show (16383 : U16).toNat = 16383 from rfl]; omega
  have z : ∀ v : U16, decide (v.toNat ≠ 0) = decide (v ≠ 0) := by
    intro v
    rw [decide_eq_decide]
    exact not_congr ⟨fun h => BitVec.eq_of_toNat_eq h, fun h => by rw [h]; rfl⟩
  generalize hm : msg 2 0x21 deviceId source dest
        (le7 2 numEnabled.toNat ++ (Spec.profileBytes E ++ (le7 2 numDisabled.toNat ++ Spec.profileBytes D))) = m
  have dr12 : m.data.drop 12 = le7 2 numEnabled.toNat ++ (Spec.profileBytes E ++
      (le7 2 numDisabled.toNat ++ Spec.profileBytes D)) := by rw [← hm]; rfl
  have dr14 : m.data.drop (14 + numEnabled.toNat * 5) = le7 2 numDisabled.toNat ++ Spec.profileBytes D := by
    rw [show 14 + numEnabled.toNat * 5 = 12 + (2 + 5 * E.length) by omega, ← List.drop_drop, dr12, ← List.drop_drop,
      ← profileBytes_length E]
    show List.drop _ (Spec.profileBytes E ++ _) = _
    rw [List.drop_append, List.drop_eq_nil_of_le (as := Spec.profileBytes E) (by omega)]
    simp
  have hlen : m.data.length = 16 + 5 * E.length + 5 * D.length := by
    rw [← hm, msg_length]
    simp only [List.length_append, le7_length, profileBytes_length]
    omega
  have n12 : m.makeUint14 12 = .ok numEnabled := read14 he dr12
  have off : ProfileInquiryReplyView.offsetOfDisabled m = .ok (14 + numEnabled.toNat * 5) := by
    unfold ProfileInquiryReplyView.offsetOfDisabled; rw [n12]; rfl
  have n14 : m.makeUint14 (14 + numEnabled.toNat * 5) = .ok numDisabled := read14 hdi dr14
  refine ⟨m, ?_, ?_, ?_, ?_, n12, ?_, ?_, ?_⟩
  · unfold makeProfileInquiryReplyN
    rw [assert_ok (le14 _ he), ok_bind, assert_ok (le14 _ hdi), ok_bind, makeWithPayload_eq, ok_bind, msg_add14 _ he, ok_bind,
      msg_addProfiles _ _ hel (by rw [hE]; exact he7), ok_bind, msg_add14 _ hdi, ok_bind,
      msg_addProfiles _ _ hdl (by rw [hD]; exact hd7), hE, hD, ← hm]
    simp only [List.nil_append, List.append_assoc]
  · rw [← hm]
    refine isMessage [⟨_, ProfileInquiryReplyView.validate, [0x21]⟩] ?_ rfl ?_ (by decide) hs hd hdev (by decide)
    · exact seven_append (le7_seven _ _) (seven_append (profileBytes_seven he7) (seven_append (le7_seven _ _)
        (profileBytes_seven hd7)))
    · rw [hm]
      intro w hw
      rw [List.mem_singleton] at hw
      subst hw
      show ProfileInquiryReplyView.validate m = .ok true
      unfold ProfileInquiryReplyView.validate
      rw [show (isNonRealtime m &&! sizeAtLeast m 16 &&! dataAt m 1 (· == 0x0D) &&! dataAt m 2 (· == 0x21)) = .ok true by
        simp only [andThen_true, isNonRealtime_true, sizeAtLeast_true, dataAt_true, hlen]
        refine ⟨by rw [← hm]; rfl, by omega, ⟨0x0D, by rw [← hm]; rfl, rfl⟩, 0x21, by rw [← hm]; rfl, rfl⟩]
      rw [ok_bind, if_pos rfl, n12, ok_bind]
      dsimp only
      rw [if_pos (by omega), show 16 + numEnabled.toNat * 5 - 2 = 14 + numEnabled.toNat * 5 by omega, n14, ok_bind]
      show Except.ok _ = Except.ok _
      rw [decide_eq_true (by omega)]
  · unfold ProfileInquiryReplyView.hasEnabled
    rw [readIndex (b := BitVec.ofNat 8 (numEnabled.toNat % 128)) (by rw [dr12]; rfl), ok_bind,
      readIndex (pos := 13) (b := BitVec.ofNat 8 (numEnabled.toNat / 128 % 128)) (by
        rw [show 13 = 12 + 1 from rfl, ← List.drop_drop, dr12]; rfl), ok_bind, has_profiles _ he, z]
    rfl
  · unfold ProfileInquiryReplyView.hasDisabled
    rw [off, ok_bind, readIndex (b := BitVec.ofNat 8 (numDisabled.toNat % 128)) (by rw [dr14]; rfl), ok_bind,
      readIndex (b := BitVec.ofNat 8 (numDisabled.toNat / 128 % 128)) (by
        rw [← List.drop_drop, dr14]; rfl), ok_bind, has_profiles _ hdi, z]
    rfl
  · unfold ProfileInquiryReplyView.numDisabled
    rw [off, ok_bind, n14]
  · exact readProfileList (by omega) (by rw [lE]; exact dr12)
  · unfold ProfileInquiryReplyView.disabled
    rw [off, ok_bind]
    exact readProfileList (c := []) (by omega) (by rw [lD, List.append_nil]; exact dr14)

/-- C41: `make_profile_inquiry_reply` with vectors of up to 16383 profiles each. -/
theorem C41_profile_inquiry_reply (source dest : Word) (enabled disabled : List ProfileId) (deviceId : Byte)
    (hs : U28 source) (hd : U28 dest) (hdev : U7 deviceId) (he : enabled.length ≤ 16383) (hdi : disabled.length ≤ 16383)
    (he7 : ∀ p ∈ enabled, Seven p.bytes) (hd7 : ∀ p ∈ disabled, Seven p.bytes) :
    ∃ m, makeProfileInquiryReply source dest enabled disabled deviceId = .ok m ∧
      IsMessage m 2 0x21 deviceId source dest
        (le7 2 enabled.length ++ (Spec.profileBytes enabled ++ (le7 2 disabled.length ++ Spec.profileBytes disabled)))
        ["profile_inquiry_reply_view"] ∧
      ProfileInquiryReplyView.hasEnabled m = .ok (decide (enabled ≠ [])) ∧
      ProfileInquiryReplyView.hasDisabled m = .ok (decide (disabled ≠ [])) ∧
      ProfileInquiryReplyView.numEnabled m = .ok (BitVec.ofNat 16 enabled.length) ∧
      ProfileInquiryReplyView.numDisabled m = .ok (BitVec.ofNat 16 disabled.length) ∧
      ProfileInquiryReplyView.enabled m = .ok enabled ∧ ProfileInquiryReplyView.disabled m = .ok disabled := by
  have e : (BitVec.ofNat 16 enabled.length).toNat = enabled.length := by rw [BitVec.toNat_ofNat]; omega
  have d : (BitVec.ofNat 16 disabled.length).toNat = disabled.length := by rw [BitVec.toNat_ofNat]; omega
  have z : ∀ l : List ProfileId, l.length ≤ 16383 → decide (BitVec.ofNat 16 l.length ≠ 0) = decide (l ≠ []) := by
    intro l hl
    rw [decide_eq_decide]
    refine not_congr ⟨fun h => ?_, fun h => by rw [h]; rfl⟩
    have := congrArg BitVec.toNat h
    rw [BitVec.toNat_ofNat] at this
    refine List.length_eq_zero_iff.1 ?_
    rw [show (0 : U16).toNat = 0 from rfl] at this
    omega
  have := C41_profile_inquiry_reply_array source dest enabled (BitVec.ofNat 16 enabled.length) disabled
    (BitVec.ofNat 16 disabled.length) deviceId hs hd hdev (by rw [U14, e]; omega) (by rw [U14, d]; omega) (by omega) (by omega)
    (by rw [e, List.take_length]; exact he7) (by rw [d, List.take_length]; exact hd7)
  rw [e, d, List.take_length, List.take_length, z _ he, z _ hdi] at this
  exact this

example : ∃ m, makeProfileInquiryReply 5 6 [⟨0x7E, 0x21, 0, 1, 2⟩, ⟨0x7E, 0x22, 0, 1, 2⟩] [⟨1, 2, 3, 4, 5⟩] 0x7F = .ok m ∧
    ProfileInquiryReplyView.disabled m = .ok [⟨1, 2, 3, 4, 5⟩] := ⟨_, rfl, rfl⟩

/-! ## C43 -/

/-- C43: `make_profile_specific_data_message` with pointer and size, for any data whose size fits into 28 bit. -/
theorem C43_profile_specific_data (source dest : Word) (p : ProfileId) (data : List Byte) (deviceId : Byte)
    (hs : U28 source) (hd : U28 dest) (hp : Seven p.bytes) (hdata : Seven data) (hlen : data.length < 2 ^ 28)
    (hdev : U7 deviceId) :
    ∃ m, makeProfileSpecificData source dest p data deviceId = .ok m ∧
      IsMessage m 2 0x2F deviceId source dest (p.bytes ++ (le7 4 data.length ++ data)) ["profile_specific_data_view"] ∧
      ProfileIdView.profile m = .ok p ∧ ProfileSpecificDataView.dataSize m = .ok data.length ∧
      ProfileSpecificDataView.data m = .ok data := by
  have e : (BitVec.ofNat 32 data.length).toNat = data.length := by rw [BitVec.toNat_ofNat]; omega
  have h28 : (msg 2 0x2F deviceId source dest (p.bytes ++ (le7 4 data.length ++ data))).makeUint28 17 =
      .ok (BitVec.ofNat 32 data.length) :=
    read28 (c := data) (by omega) (by rw [e]; rfl)
  have hl : ProfileSpecificDataView.dataSize (msg 2 0x2F deviceId source dest (p.bytes ++ (le7 4 data.length ++ data))) =
      .ok data.length := by
    unfold ProfileSpecificDataView.dataSize; rw [h28, ok_bind, e]; rfl
  refine ⟨msg 2 0x2F deviceId source dest (p.bytes ++ (le7 4 data.length ++ data)), ?_, ?_, readProfile rfl, hl, ?_⟩
  · unfold makeProfileSpecificData
    rw [makeWithPayload_eq, ok_bind, msg_addData _ (by simp [ProfileId.bytes]), ok_bind,
      msg_add28 _ (by rw [U28, e]; exact hlen), ok_bind, e]
    by_cases h0 : data.length = 0
    · rw [if_neg (by omega), List.length_eq_zero_iff.1 h0]
      rfl
    · rw [if_pos h0, msg_addData _ h0]
      simp only [List.nil_append, List.append_assoc]
  · refine isMessage [⟨_, ProfileSpecificDataView.validate, [0x2F]⟩] (by seven) rfl ?_ (by decide) hs hd hdev (by decide)
    ci_valid [ProfileSpecificDataView.validate]
    refine ⟨rfl, by ci_len, ?_, ⟨_, rfl, rfl⟩, _, rfl, rfl⟩
    rw [map_true]
    exact ⟨_, h28, by rw [e]; ci_len⟩
  · unfold ProfileSpecificDataView.data
    rw [hl, ok_bind]
    exact readSlice (c := []) (by ci_len) (by rw [List.append_nil]; rfl) rfl

example := C43_profile_specific_data 0x1234567 0xFFFFFFF ⟨0x7E, 1, 2, 3, 4⟩ [1, 2, 3] 0x7F (by decide) (by decide) (by decide) (by decide)
  (by decide) (by decide)

/-- C43: the vector overload of `make_profile_specific_data_message`, up to 65535 bytes. Missing: larger vectors, of which
only a part is sent (see `C43_vector_is_cut`). -/
theorem C43_profile_specific_data_vector_partial (source dest : Word) (p : ProfileId) (data : List Byte) (deviceId : Byte)
    (hs : U28 source) (hd : U28 dest) (hp : Seven p.bytes) (hdata : Seven data) (hlen : data.length < 2 ^ 16)
    (hdev : U7 deviceId) :
    ∃ m, makeProfileSpecificDataVector source dest p data deviceId = .ok m ∧
      IsMessage m 2 0x2F deviceId source dest (p.bytes ++ (le7 4 data.length ++ data)) ["profile_specific_data_view"] ∧
      ProfileIdView.profile m = .ok p ∧ ProfileSpecificDataView.dataSize m = .ok data.length ∧
      ProfileSpecificDataView.data m = .ok data := by
  unfold makeProfileSpecificDataVector
  rw [Nat.mod_eq_of_lt (by omega), List.take_length]
  exact C43_profile_specific_data source dest p data deviceId hs hd hp hdata (by omega) hdev

example := C43_profile_specific_data_vector_partial 0x1234567 0xFFFFFFF ⟨0x7E, 1, 2, 3, 4⟩ [1, 2, 3] 0x7F (by decide) (by decide)
  (by decide) (by decide) (by decide) (by decide)

/-- C43 is false for the vector overload: of a vector of 65536 bytes or more, only the first `size % 65536` bytes are
sent, although the message is valid in every other respect. -/
theorem C43_vector_is_cut (source dest : Word) (p : ProfileId) (data : List Byte) (deviceId : Byte)
    (hs : U28 source) (hd : U28 dest) (hp : Seven p.bytes) (hdata : Seven data) (hdev : U7 deviceId) :
    ∃ m, makeProfileSpecificDataVector source dest p data deviceId = .ok m ∧
      ProfileSpecificDataView.validate m = .ok true ∧ ProfileIdView.profile m = .ok p ∧
      ProfileSpecificDataView.data m = .ok (data.take (data.length % 65536)) := by
  have hlen : (data.take (data.length % 65536)).length < 2 ^ 28 := by
    have := List.length_take_le (data.length % 65536) data; omega
  obtain ⟨m, h1, h2, hpr, -, h3⟩ := C43_profile_specific_data source dest p (data.take (data.length % 65536)) deviceId hs hd hp
    (fun b hb => hdata b (List.mem_of_mem_take hb)) hlen hdev
  refine ⟨m, h1, ?_, hpr, h3⟩
  obtain ⟨b, hb⟩ := (views_sound ⟨"profile_specific_data_view", ProfileSpecificDataView.validate, [0x2F]⟩
    (by simp [views]) m (by rw [h2.2.1]; simp [ciHeader_length]; omega)).1
  have e : m = msg 2 0x2F deviceId source dest (p.bytes ++ (le7 4 (data.take (data.length % 65536)).length ++
    data.take (data.length % 65536))) := by
    obtain ⟨h4, h5, -⟩ := h2
    cases m; simp only at h4 h5; subst h4 h5; rfl
  generalize data.take (data.length % 65536) = d at *
  rw [e]
  have e' : (BitVec.ofNat 32 d.length).toNat = d.length := by rw [BitVec.toNat_ofNat]; omega
  ci_valid [ProfileSpecificDataView.validate]
  refine ⟨rfl, by ci_len, ?_, ⟨_, rfl, rfl⟩, _, rfl, rfl⟩
  rw [map_true]
  exact ⟨BitVec.ofNat 32 d.length, read28 (c := d) (by omega) (by rw [e']; rfl), by rw [e']; ci_len⟩

/-- C43, exact condition: the payload reads back from the message the vector overload makes if and only if it has less than
65536 bytes. -/
theorem C43_vector_round_trip_iff (source dest : Word) (p : ProfileId) (data : List Byte) (deviceId : Byte)
    (hs : U28 source) (hd : U28 dest) (hp : Seven p.bytes) (hdata : Seven data) (hdev : U7 deviceId) :
    ∃ m d, makeProfileSpecificDataVector source dest p data deviceId = .ok m ∧ ProfileSpecificDataView.data m = .ok d ∧
      (d = data ↔ data.length < 65536) := by
  obtain ⟨m, h1, -, -, h2⟩ := C43_vector_is_cut source dest p data deviceId hs hd hp hdata hdev
  refine ⟨m, _, h1, h2, ?_⟩
  constructor
  · intro h
    have := congrArg List.length h
    rw [List.length_take] at this
    omega
  · intro h
    rw [Nat.mod_eq_of_lt h, List.take_length]

/-- A vector for which the data sent differs. -/
example : (List.replicate 65536 (0x01 : Byte)).take ((List.replicate 65536 (0x01 : Byte)).length % 65536) ≠
    List.replicate 65536 0x01 := by
  rw [List.length_replicate]
  intro h
  have := congrArg List.length h
  rw [List.length_take, List.length_replicate] at this
  omega

end CI
end Midi
