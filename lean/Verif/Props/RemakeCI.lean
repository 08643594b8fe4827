import Verif.Lemmas.RemakeCI

/-!
# C90: MIDI-CI messages are made again from what is read from them

For every message of 7 bit bytes that a view accepts: the factory, called with what the view returns, returns a message
which has the same bytes, except for the version, fields for which the factory has no argument, and bytes behind the
end of the message. `SameBut n changes s m` (Verif.Spec.RemakeCI) says so: `m` is `s` cut off at `n`, with the bytes
in the list `changes`.
-/

namespace Midi
open Spec UniversalSysex CI

/-- C90: the message made again is equal to the one received if and only if that has nothing behind its end and the
bytes in the list are the ones it has. -/
theorem C90_equal_iff {n : Nat} {changes : List (Nat × Byte)} {s m : Sysex} (h : SameBut n changes s m) :
    m = s ↔ s.data.length = n ∧ ∀ i b, i < n → changes.lookup i = some b → s.data[i]? = some b := by
  obtain ⟨h1, h2, h3, h4⟩ := h
  constructor
  · rintro rfl
    refine ⟨h2, fun i b hi hb => ?_⟩
    rw [h4 i hi, hb]; rfl
  · rintro ⟨hn, hc⟩
    cases m with
    | mk id d =>
      cases s with
      | mk id' d' =>
        simp only at h1 h2 h4 hn hc
        subst h1
        congr 1
        apply List.ext_getElem?
        intro i
        by_cases hi : i < n
        · rw [h4 i hi]
          cases e : changes.lookup i with
          | none => rfl
          | some b => rw [hc i b hi e]; rfl
        · rw [List.getElem?_eq_none (by omega), List.getElem?_eq_none (by omega)]

/-! ## Discovery -/

/-- The payload of discovery messages. -/
theorem discovery_payload {p : List Byte} (k : Nat) (h : 16 + k ≤ p.length) (h7 : Spec.Seven p) :
    ∃ (i : DeviceIdentity) (cat : Byte) (size : Word) (more rest : List Byte), ValidIdentity i ∧ U7 cat ∧ U28 size ∧ Spec.Seven more ∧ more.length = k ∧
      p = (identityBytes i ++ ([cat] ++ (le7 4 size.toNat ++ more))) ++ rest := by
  obtain ⟨a, r, rfl, ha⟩ := cut 11 (l := p) (by omega)
  obtain ⟨c, r, rfl, hc⟩ := cut 1 (l := r) (by simp at h; omega)
  obtain ⟨z, r, rfl, hz⟩ := cut 4 (l := r) (by simp at h; omega)
  obtain ⟨m, r, rfl, hm⟩ := cut k (l := r) (by simp at h; omega)
  have s1 := seven_right h7
  have s2 := seven_right s1
  obtain ⟨i, hi, rfl⟩ := identity_exists a (seven_left h7) ha
  obtain ⟨size, hs, rfl⟩ := digits28 z (seven_left s2) hz
  match c, hc with
  | [cat], _ =>
    exact ⟨i, cat, size, m, r, hi, s1 cat (by simp), hs, seven_left (seven_right s2), hm, by simp only [List.append_assoc]⟩

/-- C90: `make_discovery_inquiry`; the destination becomes the broadcast MUID. -/
theorem C90_discovery_inquiry (s : Sysex) (h : DiscoveryInquiryView.validate s = .ok true)
    (h7 : ∀ b ∈ s.data, b.toNat < 128) (hv : ∃ v, View.messageVersion s = .ok v ∧ 2 ≤ v.toNat) :
    ∃ m, (do
        makeDiscoveryInquiry (← View.sourceMuid s) (← Discovery.identity s) (← Discovery.categories s)
          (← Discovery.maximumMessageSize s) (← Discovery.outputPathId s)) = .ok m ∧
      SameBut 29 [(0, 0x7F), (3, 2), (8, 0x7F), (9, 0x7F), (10, 0x7F), (11, 0x7F)] s m := by
  obtain ⟨v, st, dev, src, dst, p, rfl, hst, ⟨-, hp⟩, hv7, hdev, hs, hd, h7p⟩ :=
    ci_split ((C55_discovery_inquiry s).1 h) h7
  obtain ⟨v', hv', hge⟩ := hv
  have : v = v' := by injection hv'
  subst this
  obtain ⟨i, cat, size, more, rest, hi, hc, hsz, hm, hml, rfl⟩ := discovery_payload 1 (hp hge) h7p
  rw [List.mem_singleton] at hst
  subst hst
  match more, hml with
  | [out], _ =>
    have ho : U7 out := hm out (by simp)
    refine ⟨msg 2 0x70 0x7F src broadcastMuid (identityBytes i ++ ([cat] ++ (le7 4 size.toNat ++ [out]))), ?_, ?_⟩
    · have r5 : Discovery.outputPathId (msg v 0x70 dev src dst ((identityBytes i ++ ([cat] ++ (le7 4 size.toNat ++ [out]))) ++ rest)) = .ok out := by
        unfold Discovery.outputPathId
        rw [show View.messageVersion _ = .ok v from rfl, ok_bind, if_pos (by rw [ge_iff_le, BitVec.le_def]; exact hge)]
        rfl
      rw [(reads hs hd).1, ok_bind, show Discovery.identity _ = .ok i from
        readIdentity (c := [cat] ++ (le7 4 size.toNat ++ [out]) ++ rest) hi (by simp only [List.append_assoc]; rfl), ok_bind,
        show Discovery.categories _ = .ok cat from rfl, ok_bind, show Discovery.maximumMessageSize _ = .ok size from
        read28 (c := [out] ++ rest) hsz rfl, ok_bind, r5, ok_bind]
      unfold makeDiscoveryInquiry Discovery.makeMessage
      rw [makeWithPayload_eq, ok_bind, msg_identity _ hi, ok_bind, msg_add7 _ hc, ok_bind, msg_add28 _ hsz, ok_bind,
        msg_add7 _ ho]
      simp only [List.nil_append, List.append_assoc]
    · exact same_header (by rfl) (by decide) header_broadcast2

/-- C90: `make_discovery_inquiry_v1`. -/
theorem C90_discovery_inquiry_v1 (s : Sysex) (h : DiscoveryInquiryView.validate s = .ok true)
    (h7 : ∀ b ∈ s.data, b.toNat < 128) :
    ∃ m, (do
        makeDiscoveryInquiryV1 (← View.sourceMuid s) (← Discovery.identity s) (← Discovery.categories s)
          (← Discovery.maximumMessageSize s)) = .ok m ∧
      SameBut 28 [(0, 0x7F), (3, 1), (8, 0x7F), (9, 0x7F), (10, 0x7F), (11, 0x7F)] s m := by
  obtain ⟨v, st, dev, src, dst, p, rfl, hst, ⟨hp, -⟩, hv7, hdev, hs, hd, h7p⟩ :=
    ci_split ((C55_discovery_inquiry s).1 h) h7
  obtain ⟨i, cat, size, more, rest, hi, hc, hsz, hm, hml, rfl⟩ := discovery_payload 0 hp h7p
  rw [List.mem_singleton] at hst
  subst hst
  rw [List.length_eq_zero_iff.1 hml]
  refine ⟨msg 1 0x70 0x7F src broadcastMuid (identityBytes i ++ ([cat] ++ (le7 4 size.toNat ++ []))), ?_, ?_⟩
  · rw [(reads hs hd).1, ok_bind, show Discovery.identity _ = .ok i from
      readIdentity (c := [cat] ++ (le7 4 size.toNat ++ []) ++ rest) hi (by simp only [List.append_assoc]; rfl), ok_bind,
      show Discovery.categories _ = .ok cat from rfl, ok_bind, show Discovery.maximumMessageSize _ = .ok size from
      read28 (c := rest) hsz rfl, ok_bind]
    unfold makeDiscoveryInquiryV1 Discovery.makeMessageV1
    rw [makeWithPayload_eq, ok_bind, msg_identity _ hi, ok_bind, msg_add7 _ hc, ok_bind, msg_add28 _ hsz, ok_bind,
      msg_version]
    simp only [List.nil_append, List.append_assoc, List.append_nil]
  · exact same_header (by rfl) (by decide) header_broadcast1

/-- C90: `make_discovery_reply`. -/
theorem C90_discovery_reply (s : Sysex) (h : DiscoveryReplyView.validate s = .ok true)
    (h7 : ∀ b ∈ s.data, b.toNat < 128) (hv : ∃ v, View.messageVersion s = .ok v ∧ 2 ≤ v.toNat) :
    ∃ m, (do
        makeDiscoveryReply (← View.sourceMuid s) (← View.destinationMuid s) (← Discovery.identity s)
          (← Discovery.categories s) (← Discovery.maximumMessageSize s) (← Discovery.outputPathId s)
          (← DiscoveryReplyView.functionBlock s)) = .ok m ∧
      SameBut 30 [(0, 0x7F), (3, 2)] s m := by
  obtain ⟨v, st, dev, src, dst, p, rfl, hst, ⟨-, hp⟩, hv7, hdev, hs, hd, h7p⟩ :=
    ci_split ((C55_discovery_reply s).1 h) h7
  obtain ⟨v', hv', hge⟩ := hv
  have : v = v' := by injection hv'
  subst this
  obtain ⟨i, cat, size, more, rest, hi, hc, hsz, hm, hml, rfl⟩ := discovery_payload 2 (hp hge) h7p
  rw [List.mem_singleton] at hst
  subst hst
  match more, hml with
  | [out, fb], _ =>
    have ho : U7 out := hm out (by simp)
    have hf : U7 fb := hm fb (by simp)
    refine ⟨msg 2 0x71 0x7F src dst (identityBytes i ++ ([cat] ++ (le7 4 size.toNat ++ [out, fb]))), ?_, ?_⟩
    · have hle : v ≥ 2 := by rw [ge_iff_le, BitVec.le_def]; exact hge
      have r5 : Discovery.outputPathId (msg v 0x71 dev src dst
          ((identityBytes i ++ ([cat] ++ (le7 4 size.toNat ++ [out, fb]))) ++ rest)) = .ok out := by
        unfold Discovery.outputPathId
        rw [show View.messageVersion _ = .ok v from rfl, ok_bind, if_pos hle]
        rfl
      have r6 : DiscoveryReplyView.functionBlock (msg v 0x71 dev src dst
          ((identityBytes i ++ ([cat] ++ (le7 4 size.toNat ++ [out, fb]))) ++ rest)) = .ok fb := by
        unfold DiscoveryReplyView.functionBlock
        rw [show View.messageVersion _ = .ok v from rfl, ok_bind, if_pos hle]
        rfl
      rw [(reads hs hd).1, ok_bind, (reads hs hd).2.1, ok_bind, show Discovery.identity _ = .ok i from
        readIdentity (c := [cat] ++ (le7 4 size.toNat ++ [out, fb]) ++ rest) hi (by simp only [List.append_assoc]; rfl),
        ok_bind, show Discovery.categories _ = .ok cat from rfl, ok_bind,
        show Discovery.maximumMessageSize _ = .ok size from read28 (c := [out, fb] ++ rest) hsz rfl, ok_bind, r5, ok_bind,
        r6, ok_bind]
      unfold makeDiscoveryReply Discovery.makeMessage
      rw [makeWithPayload_eq, ok_bind, msg_identity _ hi, ok_bind, msg_add7 _ hc, ok_bind, msg_add28 _ hsz, ok_bind,
        msg_add7 _ ho, ok_bind, msg_add7 _ hf]
      simp only [List.nil_append, List.append_assoc, List.cons_append]
    · exact same_header (by rfl) (by decide) header72

/-- C90: `make_discovery_reply_v1`. -/
theorem C90_discovery_reply_v1 (s : Sysex) (h : DiscoveryReplyView.validate s = .ok true)
    (h7 : ∀ b ∈ s.data, b.toNat < 128) :
    ∃ m, (do
        makeDiscoveryReplyV1 (← View.sourceMuid s) (← View.destinationMuid s) (← Discovery.identity s)
          (← Discovery.categories s) (← Discovery.maximumMessageSize s)) = .ok m ∧
      SameBut 28 [(0, 0x7F), (3, 1)] s m := by
  obtain ⟨v, st, dev, src, dst, p, rfl, hst, ⟨hp, -⟩, hv7, hdev, hs, hd, h7p⟩ :=
    ci_split ((C55_discovery_reply s).1 h) h7
  obtain ⟨i, cat, size, more, rest, hi, hc, hsz, hm, hml, rfl⟩ := discovery_payload 0 hp h7p
  rw [List.mem_singleton] at hst
  subst hst
  rw [List.length_eq_zero_iff.1 hml]
  refine ⟨msg 1 0x71 0x7F src dst (identityBytes i ++ ([cat] ++ (le7 4 size.toNat ++ []))), ?_, ?_⟩
  · rw [(reads hs hd).1, ok_bind, (reads hs hd).2.1, ok_bind, show Discovery.identity _ = .ok i from
      readIdentity (c := [cat] ++ (le7 4 size.toNat ++ []) ++ rest) hi (by simp only [List.append_assoc]; rfl), ok_bind,
      show Discovery.categories _ = .ok cat from rfl, ok_bind, show Discovery.maximumMessageSize _ = .ok size from
      read28 (c := rest) hsz rfl, ok_bind]
    unfold makeDiscoveryReplyV1 Discovery.makeMessageV1
    rw [makeWithPayload_eq, ok_bind, msg_identity _ hi, ok_bind, msg_add7 _ hc, ok_bind, msg_add28 _ hsz, ok_bind,
      msg_version]
    simp only [List.nil_append, List.append_assoc, List.append_nil]
  · exact same_header (by rfl) (by decide) header71

/-! ## Endpoint information, ACK, NAK, invalidate MUID -/

/-- C90: `make_endpoint_information_inquiry`. -/
theorem C90_endpoint_information_inquiry (s : Sysex) (h : EndpointInformationInquiryView.validate s = .ok true)
    (h7 : ∀ b ∈ s.data, b.toNat < 128) :
    ∃ m, (do
        makeEndpointInformationInquiry (← View.sourceMuid s) (← View.destinationMuid s)
          (← EndpointInformationInquiryView.status s)) = .ok m ∧
      SameBut 13 [(0, 0x7F), (3, 2)] s m := by
  obtain ⟨v, st, dev, src, dst, p, rfl, hst, hp, hv7, hdev, hs, hd, h7p⟩ :=
    ci_split ((C55_endpoint_information_inquiry s).1 h) h7
  rw [List.mem_singleton] at hst
  subst hst
  obtain ⟨a, rest, rfl, ha⟩ := cut 1 hp
  match a, ha with
  | [status], _ =>
    refine ⟨msg 2 0x72 0x7F src dst [status], ?_, same_header rfl (by decide) header72⟩
    rw [(reads hs hd).1, ok_bind, (reads hs hd).2.1, ok_bind, show EndpointInformationInquiryView.status _ = .ok status from rfl,
      ok_bind]
    unfold makeEndpointInformationInquiry
    rw [makeWithPayload_eq, ok_bind, msg_add7 _ (h7p status (by simp))]
    rfl

/-- C90: `make_endpoint_information_reply`. -/
theorem C90_endpoint_information_reply (s : Sysex) (h : EndpointInformationReplyView.validate s = .ok true)
    (h7 : ∀ b ∈ s.data, b.toNat < 128) :
    ∃ m n, (do
        makeEndpointInformationReply (← View.sourceMuid s) (← View.destinationMuid s)
          (← EndpointInformationReplyView.status s) (← EndpointInformationReplyView.data s)) = .ok m ∧
      EndpointInformationReplyView.dataLength s = .ok n ∧ SameBut (15 + n.toNat) [(0, 0x7F), (3, 2)] s m := by
  obtain ⟨v, st, dev, src, dst, p, rfl, hst, ⟨a, data, rest, rfl, ha, hl⟩, hv7, hdev, hs, hd, h7p⟩ :=
    ci_split ((C55_endpoint_information_reply s h7).1 h) h7
  rw [List.mem_singleton] at hst
  subst hst
  match a, ha with
  | [status], _ =>
    have e : (BitVec.ofNat 16 data.length).toNat = data.length := by rw [BitVec.toNat_ofNat]; omega
    have hlen : EndpointInformationReplyView.dataLength (msg v 0x73 dev src dst ([status] ++ le7 2 data.length ++ data ++ rest)) =
        .ok (BitVec.ofNat 16 data.length) :=
      read14_ofNat (c := data ++ rest) hl (by simp only [List.append_assoc]; rfl)
    refine ⟨msg 2 0x73 0x7F src dst ([status] ++ le7 2 data.length ++ data), _, ?_, hlen,
      same_header (by rw [e]; simp [le7_length]; omega) (by decide) header72⟩
    have hdata : EndpointInformationReplyView.data (msg v 0x73 dev src dst ([status] ++ le7 2 data.length ++ data ++ rest)) =
        .ok data := by
      unfold EndpointInformationReplyView.data
      rw [hlen, ok_bind, e]
      exact readSlice (c := rest) (by ci_len) (by simp only [List.append_assoc]; rfl) rfl
    rw [(reads hs hd).1, ok_bind, (reads hs hd).2.1, ok_bind, show EndpointInformationReplyView.status _ = .ok status from rfl,
      ok_bind, hdata, ok_bind]
    unfold makeEndpointInformationReply
    rw [makeWithPayload_eq, ok_bind, msg_add7 _ (h7p status (by simp)), ok_bind, msg_add14n _ hl, ok_bind, msg_append]
    simp only [List.nil_append, List.append_assoc, pure_eq_ok]

theorem nack_again {v st dev : Byte} {src dst : Word} {p : List Byte} (hp : Counted 8 2 v p) :
    ∃ (t c d : Byte) (details : Details) (text rest : List Byte), text.length < 128 ^ 2 ∧
      p = ([t, c, d] ++ (details.bytes ++ (le7 2 text.length ++ text))) ++ rest ∧
      Nack.transaction (msg v st dev src dst p) = .ok t ∧ Nack.statusCode (msg v st dev src dst p) = .ok c ∧
      Nack.statusData (msg v st dev src dst p) = .ok d ∧ Nack.details (msg v st dev src dst p) = .ok details.bytes ∧
      Nack.messageLength (msg v st dev src dst p) = .ok (BitVec.ofNat 16 text.length) ∧
      Nack.message (msg v st dev src dst p) = .ok text := by
  obtain ⟨a, text, rest, rfl, ha, hl⟩ := hp
  match a, ha with
  | [t, c, d, d0, d1, d2, d3, d4], _ =>
    have e : (BitVec.ofNat 16 text.length).toNat = text.length := by rw [BitVec.toNat_ofNat]; omega
    have hlen : Nack.messageLength (msg v st dev src dst ([t, c, d, d0, d1, d2, d3, d4] ++ le7 2 text.length ++ text ++ rest)) =
        .ok (BitVec.ofNat 16 text.length) :=
      read14_ofNat (c := text ++ rest) hl (by simp only [List.append_assoc]; rfl)
    refine ⟨t, c, d, ⟨d0, d1, d2, d3, d4⟩, text, rest, hl, ?_, rfl, rfl, rfl, ?_, hlen, ?_⟩
    · simp only [Details.bytes, List.append_assoc, List.cons_append, List.nil_append]
    · exact readSlice (c := le7 2 text.length ++ (text ++ rest)) (by ci_len)
        (by simp only [List.append_assoc]; rfl) rfl
    · unfold Nack.message
      rw [hlen, ok_bind, e]
      exact readSlice (c := rest) (by ci_len) (by simp only [List.append_assoc]; rfl) rfl

/-- C90: `make_ack_message`. -/
theorem C90_ack (s : Sysex) (h : AckView.validate s = .ok true) (h7 : ∀ b ∈ s.data, b.toNat < 128) :
    ∃ m n, ∃ details : Details, Nack.details s = .ok details.bytes ∧ (do
        makeAck (← View.sourceMuid s) (← View.destinationMuid s) (← UniversalSysex.View.deviceId s)
          (← Nack.transaction s) (← Nack.statusCode s) (← Nack.statusData s) details (← Nack.message s)) = .ok m ∧
      Nack.messageLength s = .ok n ∧ SameBut (22 + n.toNat) [(3, 2)] s m := by
  obtain ⟨v, st, dev, src, dst, p, rfl, hst, hp, hv7, hdev, hs, hd, h7p⟩ := ci_split ((C55_ack s h7).1 h) h7
  rw [List.mem_singleton] at hst
  subst hst
  obtain ⟨t, c, d, details, text, rest, hl, e, h1, h2, h3, h4, h5, h6⟩ := nack_again (st := 0x7D) (dev := dev) (src := src) (dst := dst) hp
  have e' : (BitVec.ofNat 16 text.length).toNat = text.length := by rw [BitVec.toNat_ofNat]; omega
  refine ⟨msg 2 0x7D dev src dst ([t, c, d] ++ (details.bytes ++ (le7 2 text.length ++ text))), _, details, h4, ?_, h5, ?_⟩
  · rw [(reads hs hd).1, ok_bind, (reads hs hd).2.1, ok_bind, (reads hs hd).2.2, ok_bind, h1, ok_bind, h2, ok_bind, h3,
      ok_bind, h6, ok_bind]
    unfold makeAck
    rw [makeWithPayload_eq, ok_bind]
    dsimp only
    rw [msg_append, msg_add14n _ hl, ok_bind, msg_append]
    simp only [List.nil_append, List.append_assoc, pure_eq_ok]
  · rw [e]
    exact same_header (by rw [e']; ci_len) (by decide) header2

/-- C90: `make_nak_message`. -/
theorem C90_nak (s : Sysex) (h : NakView.validate s = .ok true) (h7 : ∀ b ∈ s.data, b.toNat < 128) :
    ∃ m n, ∃ details : Details, Nack.details s = .ok details.bytes ∧ (do
        makeNak (← View.sourceMuid s) (← View.destinationMuid s) (← UniversalSysex.View.deviceId s)
          (← Nack.transaction s) (← Nack.statusCode s) (← Nack.statusData s) details (← Nack.message s)) = .ok m ∧
      Nack.messageLength s = .ok n ∧ SameBut (22 + n.toNat) [(3, 2)] s m := by
  obtain ⟨v, st, dev, src, dst, p, rfl, hst, ⟨-, hp⟩, hv7, hdev, hs, hd, h7p⟩ := ci_split ((C55_nak s h7).1 h) h7
  rw [List.mem_singleton] at hst
  subst hst
  obtain ⟨t, c, d, details, text, rest, hl, e, h1, h2, h3, h4, h5, h6⟩ := nack_again (st := 0x7F) (dev := dev) (src := src) (dst := dst) hp
  have e' : (BitVec.ofNat 16 text.length).toNat = text.length := by rw [BitVec.toNat_ofNat]; omega
  refine ⟨msg 2 0x7F dev src dst ([t, c, d] ++ (details.bytes ++ (le7 2 text.length ++ text))), _, details, h4, ?_, h5, ?_⟩
  · rw [(reads hs hd).1, ok_bind, (reads hs hd).2.1, ok_bind, (reads hs hd).2.2, ok_bind, h1, ok_bind, h2, ok_bind, h3,
      ok_bind, h6, ok_bind]
    unfold makeNak
    rw [makeWithPayload_eq, ok_bind]
    dsimp only
    rw [msg_append, msg_add14n _ hl, ok_bind, msg_append]
    simp only [List.nil_append, List.append_assoc, pure_eq_ok]
  · rw [e]
    exact same_header (by rw [e']; ci_len) (by decide) header2

/-- C90: `make_invalidate_muid_message`. -/
theorem C90_invalidate_muid (s : Sysex) (h : InvalidateMuidView.validate s = .ok true)
    (h7 : ∀ b ∈ s.data, b.toNat < 128) :
    ∃ m, (do makeInvalidateMuid (← View.sourceMuid s) (← InvalidateMuidView.targetMuid s)) = .ok m ∧
      SameBut 16 [(0, 0x7F), (3, 2), (8, 0x7F), (9, 0x7F), (10, 0x7F), (11, 0x7F)] s m := by
  obtain ⟨v, st, dev, src, dst, p, rfl, hst, hp, hv7, hdev, hs, hd, h7p⟩ :=
    ci_split ((C55_invalidate_muid s).1 h) h7
  rw [List.mem_singleton] at hst
  subst hst
  obtain ⟨a, rest, rfl, ha⟩ := cut 4 hp
  obtain ⟨target, ht, rfl⟩ := digits28 a (seven_left h7p) ha
  refine ⟨msg 2 0x7E 0x7F src broadcastMuid (le7 4 target.toNat), ?_, same_header rfl (by decide) header_broadcast2⟩
  rw [(reads hs hd).1, ok_bind, show InvalidateMuidView.targetMuid _ = .ok target from read28 (c := rest) ht rfl, ok_bind]
  unfold makeInvalidateMuid
  rw [makeWithPayload_eq, ok_bind, msg_add28 _ ht, List.nil_append]

/-- Messages of the kinds the discovery theorems are about, some with bytes after them. -/
example :
    (let s : Sysex := ⟨0x7E0000, [0x10, 0x0D, 0x70, 2, 1, 2, 3, 4, 5, 6, 7, 8, 0, 0x21, 9, 1, 0, 2, 0, 3, 0, 0, 0, 0x1C, 0, 4, 0, 0, 5]⟩
     DiscoveryInquiryView.validate s = .ok true ∧ (∀ b ∈ s.data, b.toNat < 128) ∧ View.messageVersion s = .ok 2) ∧
    (let s : Sysex := ⟨0x7E0000, [0x10, 0x0D, 0x71, 2, 1, 2, 3, 4, 5, 6, 7, 8, 0, 0x21, 9, 1, 0, 2, 0, 3, 0, 0, 0, 0x1C, 0, 4, 0, 0, 5, 6, 0x63]⟩
     DiscoveryReplyView.validate s = .ok true ∧ (∀ b ∈ s.data, b.toNat < 128) ∧ View.messageVersion s = .ok 2) ∧
    (let s : Sysex := ⟨0x7E0000, [0x10, 0x0D, 0x71, 1, 1, 2, 3, 4, 5, 6, 7, 8, 0, 0x21, 9, 1, 0, 2, 0, 3, 0, 0, 0, 0x1C, 0, 4, 0, 0]⟩
     DiscoveryReplyView.validate s = .ok true ∧ (∀ b ∈ s.data, b.toNat < 128) ∧ View.messageVersion s = .ok 1) := by
  refine ⟨?_, ?_, ?_⟩
  all_goals exact ⟨by rfl, by decide, by rfl⟩

/-- Messages of the kinds the other management theorems are about. -/
example :
    (let s : Sysex := ⟨0x7E0000, [0x10, 0x0D, 0x72, 2, 1, 2, 3, 4, 5, 6, 7, 8, 0]⟩
     EndpointInformationInquiryView.validate s = .ok true ∧ (∀ b ∈ s.data, b.toNat < 128)) ∧
    (let s : Sysex := ⟨0x7E0000, [0x10, 0x0D, 0x73, 2, 1, 2, 3, 4, 5, 6, 7, 8, 0, 3, 0, 0x41, 0x42, 0x43, 1]⟩
     EndpointInformationReplyView.validate s = .ok true ∧ (∀ b ∈ s.data, b.toNat < 128)) ∧
    (let s : Sysex := ⟨0x7E0000, [0x10, 0x0D, 0x7D, 2, 1, 2, 3, 4, 5, 6, 7, 8, 0x34, 1, 2, 1, 2, 3, 4, 5, 2, 0, 0x41, 0x42]⟩
     AckView.validate s = .ok true ∧ (∀ b ∈ s.data, b.toNat < 128)) ∧
    (let s : Sysex := ⟨0x7E0000, [0x10, 0x0D, 0x7F, 2, 1, 2, 3, 4, 5, 6, 7, 8, 0x34, 1, 2, 1, 2, 3, 4, 5, 2, 0, 0x41, 0x42, 7]⟩
     NakView.validate s = .ok true ∧ (∀ b ∈ s.data, b.toNat < 128)) ∧
    (let s : Sysex := ⟨0x7E0000, [0x10, 0x0D, 0x7E, 1, 1, 2, 3, 4, 5, 6, 7, 8, 9, 8, 7, 6]⟩
     InvalidateMuidView.validate s = .ok true ∧ (∀ b ∈ s.data, b.toNat < 128)) := by
  refine ⟨?_, ?_, ?_, ?_, ?_⟩
  all_goals exact ⟨by rfl, by decide⟩

end Midi
