import Verif.Lemmas.CIFactory

/-!
# C40: MIDI-CI factories and views fit together

Every factory theorem says: for arguments in range the factory returns a message (no assertion fails and no byte outside
is touched), the message has exactly the bytes of the MIDI-CI standard, it is valid 7 bit sysex, of all views exactly
the ones for this kind of message accept it, and view and message return the arguments.
-/

namespace Midi.Spec
open CI

/-- A number that fits into 7, 14 or 28 bit. -/
abbrev U7 (b : Byte) : Prop := b.toNat < 0x80
/-- See `U7`. -/
abbrev U14 (v : U16) : Prop := v.toNat < 2 ^ 14
/-- See `U7`. A MUID is such a number. -/
abbrev U28 (w : Word) : Prop := w.toNat < 2 ^ 28
/-- Seven bit data. -/
abbrev Seven (l : List Byte) : Prop := ∀ b ∈ l, b.toNat < 0x80

/-- `m` is the MIDI-CI message with the given header and payload, and the views in the list are the ones accepting
it. -/
def IsMessage (m : Sysex) (version subtype deviceId : Byte) (source dest : Word) (payload : List Byte)
    (names : List String) : Prop :=
  m.manufacturerID = 0x7E0000 ∧ m.data = ciHeader version subtype deviceId source dest ++ payload ∧
    CarriesHeader m version subtype deviceId source dest ∧ acceptedBy m = .ok names

end Midi.Spec

namespace Midi
open Spec UniversalSysex CI

namespace CI

theorem isMessage {v st dev : Byte} {src dst : Word} {rest : List Byte} (vs : List ViewClass)
    (hr : Seven rest) (hvs : views.filter (fun v => decide (st ∈ v.subtypes)) = vs)
    (hown : ∀ w ∈ vs, w.validate (msg v st dev src dst rest) = .ok true)
    (hst : st.toNat < 0x80) (hs : U28 src) (hd : U28 dst) (hdev : U7 dev) (hv : v.toNat < 0x80) :
    IsMessage (msg v st dev src dst rest) v st dev src dst rest (vs.map (·.name)) := by
  refine ⟨rfl, rfl, carriesHeader hv hst hdev hs hd hr, ?_⟩
  rw [acceptedBy_eq st (by rw [msg_length]; omega) rfl, hvs]
  intro w hw hm
  exact hown w (by rw [← hvs]; simp [hw, hm])

theorem accepted_none {m : Sysex} (st : Byte) (h4 : 4 ≤ m.data.length) (hst : m.data[2]? = some st)
    (hown : ∀ w ∈ views.filter (fun v => decide (st ∈ v.subtypes)), w.validate m = .ok false) :
    acceptedBy m = .ok [] := by
  unfold acceptedBy
  rw [accepting_eq (st := 0) (p := fun _ => false)]
  · rfl
  · intro w hw
    obtain ⟨⟨b, hb⟩, h2⟩ := views_sound w hw m h4
    cases b with
    | false => exact hb
    | true =>
      obtain ⟨st', hm, e⟩ := h2 hb
      rw [hst] at e
      injection e with e
      subst e
      exact hown w (List.mem_filter.2 ⟨hw, decide_eq_true hm⟩)

theorem msg_add7 {v st dev : Byte} {src dst : Word} {r : List Byte} (b : Byte) (h : U7 b) :
    (msg v st dev src dst r).addUint7 b = .ok (msg v st dev src dst (r ++ [b])) := by
  rw [addUint7_ok _ _ h]; simp only [msg, List.append_assoc]

theorem msg_add14 {v st dev : Byte} {src dst : Word} {r : List Byte} (b : U16) (h : U14 b) :
    (msg v st dev src dst r).addUint14 b = .ok (msg v st dev src dst (r ++ le7 2 b.toNat)) := by
  rw [addUint14_le7 _ _ h]; simp only [msg, List.append_assoc]

theorem msg_add14n {v st dev : Byte} {src dst : Word} {r : List Byte} (n : Nat) (h : n < 2 ^ 14) :
    (msg v st dev src dst r).addUint14 (BitVec.ofNat 16 n) = .ok (msg v st dev src dst (r ++ le7 2 n)) := by
  rw [addUint14_ofNat _ _ h]; simp only [msg, List.append_assoc]

theorem msg_add28 {v st dev : Byte} {src dst : Word} {r : List Byte} (b : Word) (h : U28 b) :
    (msg v st dev src dst r).addUint28 b = .ok (msg v st dev src dst (r ++ le7 4 b.toNat)) := by
  rw [addUint28_le7 _ _ h]; simp only [msg, List.append_assoc]

theorem msg_addData {v st dev : Byte} {src dst : Word} {r : List Byte} (l : List Byte) (h : l.length ≠ 0) :
    (msg v st dev src dst r).addData l = .ok (msg v st dev src dst (r ++ l)) := by
  rw [addData_ok _ _ h]; simp only [msg, List.append_assoc]

theorem msg_append {v st dev : Byte} {src dst : Word} {r : List Byte} (l : List Byte) :
    ({ msg v st dev src dst r with data := (msg v st dev src dst r).data ++ l } : Sysex) =
      msg v st dev src dst (r ++ l) := by simp only [msg, List.append_assoc]

theorem msg_identity {v st dev : Byte} {src dst : Word} {r : List Byte} (i : DeviceIdentity) (h : ValidIdentity i) :
    (msg v st dev src dst r).addDeviceIdentity i = .ok (msg v st dev src dst (r ++ identityBytes i)) := by
  rw [addDeviceIdentity_ok _ _ h]; simp only [msg, List.append_assoc]

theorem msg_version {v w st dev : Byte} {src dst : Word} {r : List Byte} :
    store (msg v st dev src dst r) 3 w = .ok (msg w st dev src dst r) := by
  unfold store
  rw [if_pos (by rw [msg_length]; omega)]
  rfl

theorem seven_append {a b : List Byte} (ha : Seven a) (hb : Seven b) : Seven (a ++ b) := by
  intro x hx
  rw [List.mem_append] at hx
  exact hx.elim (ha x) (hb x)

theorem seven_cons {a : Byte} {b : List Byte} (ha : U7 a) (hb : Seven b) : Seven (a :: b) := by
  intro x hx
  rw [List.mem_cons] at hx
  rcases hx with rfl | hx
  · exact ha
  · exact hb x hx

theorem seven_nil : Seven [] := by intro x hx; cases hx

macro "seven" : tactic => `(tactic| repeat' first
  | assumption
  | exact seven_nil
  | exact le7_seven _ _
  | (refine identityBytes_seven _ ?_; assumption)
  | (show U7 _; decide)
  | refine seven_append ?_ ?_
  | refine seven_cons ?_ ?_)

macro "ci_len" : tactic => `(tactic| (
  simp only [msg_length, List.length_append, List.length_cons, List.length_nil, le7_length, identityBytes, Details.bytes,
    ProfileId.bytes, decide_eq_true_eq, BitVec.toNat_ofNat, gt_iff_lt]
  first | omega | decide))

macro "ci_valid" "[" ls:Lean.Parser.Tactic.simpLemma,* "]" : tactic => `(tactic|
  simp only [List.forall_mem_cons, List.not_mem_nil, false_imp_iff, implies_true, and_true, true_and, $ls,*, andThen_true,
    isNonRealtime_true, sizeAtLeast_true, sizeAtLeast14_true, dataAt_true, msg_length])

/-- A condition on one byte of a message. -/
theorem at_byte {l : List Byte} {i : Nat} {c : Byte → Bool} (b : Byte) (h : l[i]? = some b) (hc : c b = true) :
    ∃ b, l[i]? = some b ∧ c b = true := ⟨b, h, hc⟩

theorem broadcast28 : U28 broadcastMuid := by decide

theorem ci_universal {v st dev : Byte} {src dst : Word} {r : List Byte} : isUniversal (msg v st dev src dst r) = true := by
  unfold isUniversal
  rw [msg_length]
  simp only [Bool.and_eq_true, decide_eq_true_eq]
  exact ⟨rfl, by omega⟩

theorem ci_type {v st dev : Byte} {src dst : Word} {r : List Byte} :
    (typeOf (msg v st dev src dst r)).map (· == 0x7E0D) = .ok true := by
  unfold typeOf
  rw [if_pos ci_universal]
  exact congrArg Except.ok (show ((((universalNonRealtime >>> 8) ||| (0x0D : Byte).setWidth 32).setWidth 16 : U16) == 0x7E0D) = true by decide)

theorem ci_subtype {v st dev : Byte} {src dst : Word} {r : List Byte} :
    (subtypeOf (msg v st dev src dst r)).map (· == st) = .ok true := by
  unfold subtypeOf
  rw [if_pos (by rw [ci_universal, msg_length]; simp; omega)]
  exact congrArg Except.ok (show (st == st) = true by simp)

/-- Reads of a profile. -/
theorem index_add (l : List Byte) (p k : Nat) : index l (p + k) = index (l.drop p) k := by
  rw [index_drop, index_drop, List.drop_drop]

theorem readProfile {s : Sysex} {pos : Nat} {p : ProfileId} {c : List Byte} (h : s.data.drop pos = p.bytes ++ c) :
    profileAt s pos = .ok p := by
  unfold profileAt
  rw [index_add, index_add, index_add, index_add, show index s.data pos = index s.data (pos + 0) from rfl, index_add, h]
  rfl

/-! ## Discovery -/

/-- C40: `make_discovery_inquiry_v1`. -/
theorem C40_discovery_inquiry_v1 (source : Word) (i : DeviceIdentity) (categories : Byte) (maxSize : Word)
    (hs : U28 source) (hi : ValidIdentity i) (hc : U7 categories) (hm : U28 maxSize) :
    ∃ m, makeDiscoveryInquiryV1 source i categories maxSize = .ok m ∧
      IsMessage m 1 0x70 0x7F source 0x0FFFFFFF (identityBytes i ++ ([categories] ++ le7 4 maxSize.toNat))
        ["discovery_inquiry_view"] ∧
      Discovery.identity m = .ok i ∧ Discovery.categories m = .ok categories ∧
      Discovery.maximumMessageSize m = .ok maxSize ∧ Discovery.outputPathId m = .ok 0 := by
  refine ⟨msg 1 0x70 0x7F source broadcastMuid (identityBytes i ++ ([categories] ++ le7 4 maxSize.toNat)), ?_, ?_,
    ?_, ?_, ?_, ?_⟩
  · unfold makeDiscoveryInquiryV1 Discovery.makeMessageV1
    rw [makeWithPayload_eq, ok_bind, msg_identity _ hi, ok_bind, msg_add7 _ hc, ok_bind, msg_add28 _ hm, ok_bind,
      msg_version]
    simp only [List.nil_append, List.append_assoc]
  · refine isMessage [⟨_, DiscoveryInquiryView.validate, [0x70]⟩] (by seven) rfl ?_ (by decide) hs broadcast28 (by decide) (by decide)
    ci_valid [DiscoveryInquiryView.validate]
    refine ⟨rfl, ?_, ⟨_, rfl, rfl⟩, _, rfl, rfl⟩
    rw [map_true]
    exact ⟨1, rfl, by ci_len⟩
  · exact readIdentity hi rfl
  · exact readIndex rfl
  · exact read28 (c := []) hm (by rw [List.append_nil]; rfl)
  · rfl


example : makeDiscoveryInquiryV1 0x1234567 ⟨0x002109, 0x1801, 0x000B, 0x0FFFFFFF⟩ 0x0C 0x200 =
    .ok ⟨0x7E0000, [0x7F, 0x0D, 0x70, 1, 0x67, 0x0A, 0x0D, 0x09, 0x7F, 0x7F, 0x7F, 0x7F, 0, 0x21, 0x09, 0x01, 0x30, 0x0B, 0x00,
      0x7F, 0x7F, 0x7F, 0x7F, 0x0C, 0, 4, 0, 0]⟩ := by rfl

/-- C40: `make_discovery_inquiry`. -/
theorem C40_discovery_inquiry (source : Word) (i : DeviceIdentity) (categories : Byte) (maxSize : Word)
    (outputPathId : Byte) (hs : U28 source) (hi : ValidIdentity i) (hc : U7 categories) (hm : U28 maxSize)
    (ho : U7 outputPathId) :
    ∃ m, makeDiscoveryInquiry source i categories maxSize outputPathId = .ok m ∧
      IsMessage m 2 0x70 0x7F source 0x0FFFFFFF
        (identityBytes i ++ ([categories] ++ (le7 4 maxSize.toNat ++ [outputPathId]))) ["discovery_inquiry_view"] ∧
      Discovery.identity m = .ok i ∧ Discovery.categories m = .ok categories ∧
      Discovery.maximumMessageSize m = .ok maxSize ∧ Discovery.outputPathId m = .ok outputPathId := by
  refine ⟨msg 2 0x70 0x7F source broadcastMuid
    (identityBytes i ++ ([categories] ++ (le7 4 maxSize.toNat ++ [outputPathId]))), ?_, ?_, ?_, ?_, ?_, ?_⟩
  · unfold makeDiscoveryInquiry Discovery.makeMessage
    rw [makeWithPayload_eq, ok_bind, msg_identity _ hi, ok_bind, msg_add7 _ hc, ok_bind, msg_add28 _ hm, ok_bind,
      msg_add7 _ ho]
    simp only [List.nil_append, List.append_assoc]
  · refine isMessage [⟨_, DiscoveryInquiryView.validate, [0x70]⟩] (by seven) rfl ?_ (by decide) hs broadcast28 (by decide) (by decide)
    ci_valid [DiscoveryInquiryView.validate]
    refine ⟨rfl, ?_, ⟨_, rfl, rfl⟩, _, rfl, rfl⟩
    rw [map_true]
    exact ⟨2, rfl, by ci_len⟩
  · exact readIdentity hi rfl
  · exact readIndex rfl
  · exact read28 (c := [outputPathId]) hm rfl
  · rfl

example := C40_discovery_inquiry 0x1234567 ⟨0x002109, 0x1801, 0x000B, 0x0FFFFFFF⟩ 0x05 0x0765432 0x0A (by decide) (by decide)
  (by decide) (by decide) (by decide)

/-- C40: `make_discovery_reply_v1`. -/
theorem C40_discovery_reply_v1 (source dest : Word) (i : DeviceIdentity) (categories : Byte) (maxSize : Word)
    (hs : U28 source) (hd : U28 dest) (hi : ValidIdentity i) (hc : U7 categories) (hm : U28 maxSize) :
    ∃ m, makeDiscoveryReplyV1 source dest i categories maxSize = .ok m ∧
      IsMessage m 1 0x71 0x7F source dest (identityBytes i ++ ([categories] ++ le7 4 maxSize.toNat))
        ["discovery_reply_view"] ∧
      Discovery.identity m = .ok i ∧ Discovery.categories m = .ok categories ∧
      Discovery.maximumMessageSize m = .ok maxSize ∧ Discovery.outputPathId m = .ok 0 ∧
      DiscoveryReplyView.functionBlock m = .ok 0x7F := by
  refine ⟨msg 1 0x71 0x7F source dest (identityBytes i ++ ([categories] ++ le7 4 maxSize.toNat)), ?_, ?_,
    ?_, ?_, ?_, ?_, ?_⟩
  · unfold makeDiscoveryReplyV1 Discovery.makeMessageV1
    rw [makeWithPayload_eq, ok_bind, msg_identity _ hi, ok_bind, msg_add7 _ hc, ok_bind, msg_add28 _ hm, ok_bind,
      msg_version]
    simp only [List.nil_append, List.append_assoc]
  · refine isMessage [⟨_, DiscoveryReplyView.validate, [0x71]⟩] (by seven) rfl ?_ (by decide) hs hd (by decide) (by decide)
    ci_valid [DiscoveryReplyView.validate]
    refine ⟨rfl, ?_, ⟨_, rfl, rfl⟩, _, rfl, rfl⟩
    rw [map_true]
    exact ⟨1, rfl, by ci_len⟩
  · exact readIdentity hi rfl
  · exact readIndex rfl
  · exact read28 (c := []) hm (by rw [List.append_nil]; rfl)
  · rfl
  · rfl

/-- C40: `make_discovery_reply`. -/
theorem C40_discovery_reply (source dest : Word) (i : DeviceIdentity) (categories : Byte) (maxSize : Word)
    (outputPathId functionBlock : Byte) (hs : U28 source) (hd : U28 dest) (hi : ValidIdentity i) (hc : U7 categories)
    (hm : U28 maxSize) (ho : U7 outputPathId) (hf : U7 functionBlock) :
    ∃ m, makeDiscoveryReply source dest i categories maxSize outputPathId functionBlock = .ok m ∧
      IsMessage m 2 0x71 0x7F source dest
        (identityBytes i ++ ([categories] ++ (le7 4 maxSize.toNat ++ [outputPathId, functionBlock])))
        ["discovery_reply_view"] ∧
      Discovery.identity m = .ok i ∧ Discovery.categories m = .ok categories ∧
      Discovery.maximumMessageSize m = .ok maxSize ∧ Discovery.outputPathId m = .ok outputPathId ∧
      DiscoveryReplyView.functionBlock m = .ok functionBlock := by
  refine ⟨msg 2 0x71 0x7F source dest
    (identityBytes i ++ ([categories] ++ (le7 4 maxSize.toNat ++ [outputPathId, functionBlock]))), ?_, ?_, ?_, ?_, ?_,
    ?_, ?_⟩
  · unfold makeDiscoveryReply Discovery.makeMessage
    rw [makeWithPayload_eq, ok_bind, msg_identity _ hi, ok_bind, msg_add7 _ hc, ok_bind, msg_add28 _ hm, ok_bind,
      msg_add7 _ ho, ok_bind, msg_add7 _ hf]
    simp only [List.nil_append, List.append_assoc, List.cons_append]
  · refine isMessage [⟨_, DiscoveryReplyView.validate, [0x71]⟩] (by seven) rfl ?_ (by decide) hs hd (by decide) (by decide)
    ci_valid [DiscoveryReplyView.validate]
    refine ⟨rfl, ?_, ⟨_, rfl, rfl⟩, _, rfl, rfl⟩
    rw [map_true]
    exact ⟨2, rfl, by ci_len⟩
  · exact readIdentity hi rfl
  · exact readIndex rfl
  · exact read28 (c := [outputPathId, functionBlock]) hm rfl
  · rfl
  · rfl

example : ValidIdentity ⟨0x002109, 0x1801, 0x000B, 0x0FFFFFFF⟩ ∧ U28 0x1234567 ∧ U7 0x0C ∧ U28 0x0FFFFFFF := by decide

/-! ## Endpoint information -/

/-- C40: `make_endpoint_information_inquiry`. -/
theorem C40_endpoint_information_inquiry (source dest : Word) (status : Byte) (hs : U28 source) (hd : U28 dest)
    (h : U7 status) :
    ∃ m, makeEndpointInformationInquiry source dest status = .ok m ∧
      IsMessage m 2 0x72 0x7F source dest [status] ["endpoint_information_inquiry_view"] ∧
      EndpointInformationInquiryView.status m = .ok status := by
  refine ⟨msg 2 0x72 0x7F source dest [status], ?_, ?_, rfl⟩
  · unfold makeEndpointInformationInquiry
    rw [makeWithPayload_eq, ok_bind, msg_add7 _ h]
    rfl
  · refine isMessage [⟨_, EndpointInformationInquiryView.validate, [0x72]⟩] (by seven) rfl ?_ (by decide) hs hd (by decide) (by decide)
    ci_valid [EndpointInformationInquiryView.validate]
    exact ⟨rfl, by ci_len, ⟨_, rfl, rfl⟩, _, rfl, rfl⟩

/-- C40: `make_endpoint_information_reply`. -/
theorem C40_endpoint_information_reply (source dest : Word) (status : Byte) (data : List Byte) (hs : U28 source)
    (hd : U28 dest) (h : U7 status) (hdata : Seven data) (hlen : data.length < 2 ^ 14) :
    ∃ m, makeEndpointInformationReply source dest status data = .ok m ∧
      IsMessage m 2 0x73 0x7F source dest ([status] ++ (le7 2 data.length ++ data)) ["endpoint_information_reply_view"] ∧
      EndpointInformationReplyView.status m = .ok status ∧
      EndpointInformationReplyView.dataLength m = .ok (BitVec.ofNat 16 data.length) ∧
      EndpointInformationReplyView.data m = .ok data := by
  have hl : EndpointInformationReplyView.dataLength (msg 2 0x73 0x7F source dest ([status] ++ (le7 2 data.length ++ data)))
      = .ok (BitVec.ofNat 16 data.length) := read14_ofNat (c := data) hlen rfl
  have e : (BitVec.ofNat 16 data.length).toNat = data.length := by rw [BitVec.toNat_ofNat]; omega
  refine ⟨msg 2 0x73 0x7F source dest ([status] ++ (le7 2 data.length ++ data)), ?_, ?_, rfl, hl, ?_⟩
  · unfold makeEndpointInformationReply
    rw [makeWithPayload_eq, ok_bind, msg_add7 _ h, ok_bind, msg_add14n _ hlen, ok_bind, msg_append]
    simp only [List.nil_append, List.append_assoc, pure_eq_ok]
  · refine isMessage [⟨_, EndpointInformationReplyView.validate, [0x73]⟩] (by seven) rfl ?_ (by decide) hs hd (by decide) (by decide)
    ci_valid [EndpointInformationReplyView.validate]
    exact ⟨rfl, by ci_len, ⟨_, hl, by ci_len⟩, ⟨_, rfl, rfl⟩, _, rfl, rfl⟩
  · unfold EndpointInformationReplyView.data
    rw [hl, ok_bind, e]
    exact readSlice (c := []) (by ci_len) (by rw [List.append_nil]; rfl) rfl

example : ∃ m, makeEndpointInformationReply 1 2 0 [0x41, 0x42] = .ok m ∧ EndpointInformationReplyView.data m = .ok [0x41, 0x42] :=
  ⟨_, rfl, rfl⟩

/-! ## ACK and NAK -/

theorem nack_reads (v st dev : Byte) (src dst : Word) (transaction statusCode statusData : Byte) (details : Details)
    (text : List Byte) (hlen : text.length < 2 ^ 14) (m : Sysex) (hm : m = msg v st dev src dst
      ([transaction, statusCode, statusData] ++ (details.bytes ++ (le7 2 text.length ++ text)))) :
    Nack.transaction m = .ok transaction ∧ Nack.statusCode m = .ok statusCode ∧ Nack.statusData m = .ok statusData ∧
      Nack.details m = .ok details.bytes ∧ Nack.messageLength m = .ok (BitVec.ofNat 16 text.length) ∧
      Nack.message m = .ok text := by
  subst hm
  have hl : Nack.messageLength (msg v st dev src dst
      ([transaction, statusCode, statusData] ++ (details.bytes ++ (le7 2 text.length ++ text)))) =
      .ok (BitVec.ofNat 16 text.length) := read14_ofNat (c := text) hlen rfl
  have e : (BitVec.ofNat 16 text.length).toNat = text.length := by rw [BitVec.toNat_ofNat]; omega
  refine ⟨rfl, rfl, rfl, ?_, hl, ?_⟩
  · exact readSlice (c := le7 2 text.length ++ text) (by ci_len) rfl rfl
  · unfold Nack.message
    rw [hl, ok_bind, e]
    exact readSlice (c := []) (by ci_len) (by rw [List.append_nil]; rfl) rfl

/-- C40: `make_ack_message`. -/
theorem C40_ack (source dest : Word) (deviceId transaction statusCode statusData : Byte) (details : Details)
    (text : List Byte) (hs : U28 source) (hd : U28 dest) (hdev : U7 deviceId) (ht : U7 transaction) (hc : U7 statusCode)
    (hsd : U7 statusData) (hdet : Seven details.bytes) (htext : Seven text) (hlen : text.length < 2 ^ 14) :
    ∃ m, makeAck source dest deviceId transaction statusCode statusData details text = .ok m ∧
      IsMessage m 2 0x7D deviceId source dest
        ([transaction, statusCode, statusData] ++ (details.bytes ++ (le7 2 text.length ++ text))) ["ack_view"] ∧
      Nack.transaction m = .ok transaction ∧ Nack.statusCode m = .ok statusCode ∧ Nack.statusData m = .ok statusData ∧
      Nack.details m = .ok details.bytes ∧ Nack.messageLength m = .ok (BitVec.ofNat 16 text.length) ∧
      Nack.message m = .ok text := by
  have e : (BitVec.ofNat 16 text.length).toNat = text.length := by rw [BitVec.toNat_ofNat]; omega
  refine ⟨msg 2 0x7D deviceId source dest
    ([transaction, statusCode, statusData] ++ (details.bytes ++ (le7 2 text.length ++ text))), ?_, ?_,
    nack_reads _ _ _ _ _ _ _ _ _ _ hlen _ rfl⟩
  · unfold makeAck
    rw [makeWithPayload_eq, ok_bind]
    simp only [msg_append]
    rw [msg_add14n _ hlen, ok_bind, msg_append]
    simp only [List.nil_append, List.append_assoc, pure_eq_ok]
  · have hr := nack_reads 2 0x7D deviceId source dest transaction statusCode statusData details text hlen _ rfl
    refine isMessage [⟨_, AckView.validate, [0x7D]⟩] (by seven) rfl ?_ (by decide) hs hd hdev (by decide)
    ci_valid [AckView.validate]
    exact ⟨rfl, by ci_len, ⟨_, hr.2.2.2.2.1, by ci_len⟩,
      ⟨_, rfl, rfl⟩, _, rfl, rfl⟩

example := C40_ack 0x1234567 0x0765432 0x05 0x0A 0x21 0x7F ⟨1, 2, 3, 4, 5⟩ [0x41, 0x42, 0x43] (by decide) (by decide)
  (by decide) (by decide) (by decide) (by decide) (by decide) (by decide) (by decide)

/-- C40: `make_nak_message`. -/
theorem C40_nak (source dest : Word) (deviceId transaction statusCode statusData : Byte) (details : Details)
    (text : List Byte) (hs : U28 source) (hd : U28 dest) (hdev : U7 deviceId) (ht : U7 transaction) (hc : U7 statusCode)
    (hsd : U7 statusData) (hdet : Seven details.bytes) (htext : Seven text) (hlen : text.length < 2 ^ 14) :
    ∃ m, makeNak source dest deviceId transaction statusCode statusData details text = .ok m ∧
      IsMessage m 2 0x7F deviceId source dest
        ([transaction, statusCode, statusData] ++ (details.bytes ++ (le7 2 text.length ++ text))) ["nak_view"] ∧
      Nack.transaction m = .ok transaction ∧ Nack.statusCode m = .ok statusCode ∧ Nack.statusData m = .ok statusData ∧
      Nack.details m = .ok details.bytes ∧ Nack.messageLength m = .ok (BitVec.ofNat 16 text.length) ∧
      Nack.message m = .ok text := by
  have e : (BitVec.ofNat 16 text.length).toNat = text.length := by rw [BitVec.toNat_ofNat]; omega
  refine ⟨msg 2 0x7F deviceId source dest
    ([transaction, statusCode, statusData] ++ (details.bytes ++ (le7 2 text.length ++ text))), ?_, ?_,
    nack_reads _ _ _ _ _ _ _ _ _ _ hlen _ rfl⟩
  · unfold makeNak
    rw [makeWithPayload_eq, ok_bind]
    simp only [msg_append]
    rw [msg_add14n _ hlen, ok_bind, msg_append]
    simp only [List.nil_append, List.append_assoc, pure_eq_ok]
  · have hr := nack_reads 2 0x7F deviceId source dest transaction statusCode statusData details text hlen _ rfl
    refine isMessage [⟨_, NakView.validate, [0x7F]⟩] (by seven) rfl ?_ (by decide) hs hd hdev (by decide)
    ci_valid [NakView.validate]
    exact ⟨rfl, by ci_len, ⟨_, hr.2.2.2.2.1, by ci_len⟩,
      ⟨_, rfl, rfl⟩, ⟨_, rfl, rfl⟩, _, rfl, rfl⟩

example := C40_nak 0x1234567 0x0765432 0x05 0x0A 0x21 0x7F ⟨1, 2, 3, 4, 5⟩ [0x41, 0x42, 0x43] (by decide) (by decide)
  (by decide) (by decide) (by decide) (by decide) (by decide) (by decide) (by decide)

/-- C40: `make_nak_message_v1`. No view accepts a NAK of version 1: it has no payload. -/
theorem C40_nak_v1 (source dest : Word) (deviceId : Byte) (hs : U28 source) (hd : U28 dest) (hdev : U7 deviceId) :
    ∃ m, makeNakV1 source dest deviceId = .ok m ∧ m = ⟨0x7E0000, ciHeader 1 0x7F deviceId source dest⟩ ∧
      CarriesHeader m 1 0x7F deviceId source dest ∧ NakView.validate m = .ok false ∧ acceptedBy m = .ok [] := by
  refine ⟨msg 1 0x7F deviceId source dest [], ?_, ?_, carriesHeader (by decide) (by decide) hdev hs hd seven_nil, rfl, ?_⟩
  · unfold makeNakV1
    rw [makeMessage_eq (by decide) hs hd hdev, ok_bind, msg_version]
  · rw [msg, List.append_nil]; rfl
  · refine accepted_none 0x7F (by ci_len) rfl fun w hw => ?_
    rw [show views.filter (fun v => decide ((0x7F : Byte) ∈ v.subtypes)) =
      [⟨"nak_view", NakView.validate, [0x7F]⟩] from rfl, List.mem_singleton] at hw
    subst hw
    rfl

example := C40_nak_v1 0x1234567 0x0765432 0x05 (by decide) (by decide) (by decide)

theorem uint28_bound {s : Sysex} {pos : Nat} {v : Word} (h7 : Seven s.data) (h : s.makeUint28 pos = .ok v) : U28 v := by
  rw [makeUint28_drop] at h
  have hd : Seven (s.data.drop pos) := fun b hb => h7 b (List.mem_of_mem_drop hb)
  match hl : s.data.drop pos with
  | [] => rw [hl] at h; cases h
  | [_] => rw [hl] at h; cases h
  | [_, _] => rw [hl] at h; cases h
  | [_, _, _] => rw [hl] at h; cases h
  | a :: b :: c :: d :: l =>
    rw [hl] at h hd
    have ha := hd a (by simp)
    have hb := hd b (by simp)
    have hc := hd c (by simp)
    have hdd := hd d (by simp)
    injection h with h
    subst h
    show _ < 2 ^ 28
    rw [BitVec.toNat_or, BitVec.toNat_or, BitVec.toNat_or]
    have e : ∀ (x : Byte) (k : Nat), x.toNat < 0x80 → k ≤ 21 → (x.setWidth 32 <<< k : Word).toNat < 2 ^ 28 := by
      intro x k hx hk
      rw [BitVec.toNat_shiftLeft, BitVec.toNat_setWidth, Nat.shiftLeft_eq]
      have h1 : 2 ^ k ≤ 2 ^ 21 := Nat.pow_le_pow_right (by omega) hk
      have h2 : x.toNat % 2 ^ 32 * 2 ^ k ≤ 127 * 2 ^ 21 := Nat.mul_le_mul (by omega) h1
      have h3 := Nat.mod_le (x.toNat % 2 ^ 32 * 2 ^ k) (2 ^ 32)
      omega
    refine Nat.or_lt_two_pow (Nat.or_lt_two_pow (Nat.or_lt_two_pow ?_ (e _ _ hb (by omega))) (e _ _ hc (by omega)))
      (e _ _ hdd (by omega))
    rw [BitVec.toNat_setWidth]
    omega

/-- What a valid MIDI-CI message returns. -/
theorem ci_reads {r : Sysex} (hv : View.validate r = .ok true) (h7 : r.isValid = true) :
    ∃ dev sub src dst, UniversalSysex.View.deviceId r = .ok dev ∧ UniversalSysex.View.subtype r = .ok sub ∧
      View.sourceMuid r = .ok src ∧ View.destinationMuid r = .ok dst ∧ U7 dev ∧ U7 sub ∧ U28 src ∧ U28 dst := by
  simp only [View.validate, andThen_true, isNonRealtime_true, sizeAtLeast_true] at hv
  obtain ⟨-, hlen, -⟩ := hv
  have hs : Seven r.data := ((C53_is_valid r).1 h7).2.2.2.2
  obtain ⟨src, e1⟩ : NoFault (View.sourceMuid r) := NoFault.uint28 (by omega)
  obtain ⟨dst, e2⟩ : NoFault (View.destinationMuid r) := NoFault.uint28 (by omega)
  refine ⟨r.data[0], r.data[2], src, dst, index_ok (by omega), ?_, e1, e2, hs _ (List.getElem_mem _),
    hs _ (List.getElem_mem _), uint28_bound hs e1, uint28_bound hs e2⟩
  unfold UniversalSysex.View.subtype
  rw [if_pos (by omega), index_ok (by omega)]

/-- C40: `make_nak_message` answering a message `r`: the NAK goes back to the sender and names the message. -/
theorem C40_nak_for (r : Sysex) (statusCode statusData : Byte) (details : Details) (text : List Byte)
    (hr : View.validate r = .ok true) (h7 : r.isValid = true) (hc : U7 statusCode)
    (hsd : U7 statusData) (hdet : Seven details.bytes) (htext : Seven text) (hlen : text.length < 2 ^ 14) :
    ∃ dev sub src dst m, UniversalSysex.View.deviceId r = .ok dev ∧ UniversalSysex.View.subtype r = .ok sub ∧
      View.sourceMuid r = .ok src ∧ View.destinationMuid r = .ok dst ∧
      makeNakFor r statusCode statusData details text = .ok m ∧
      IsMessage m 2 0x7F dev dst src
        ([sub, statusCode, statusData] ++ (details.bytes ++ (le7 2 text.length ++ text))) ["nak_view"] ∧
      Nack.transaction m = .ok sub ∧ Nack.statusCode m = .ok statusCode ∧ Nack.statusData m = .ok statusData ∧
      Nack.details m = .ok details.bytes ∧ Nack.messageLength m = .ok (BitVec.ofNat 16 text.length) ∧
      Nack.message m = .ok text := by
  obtain ⟨dev, sub, src, dst, e1, e2, e3, e4, b1, b2, b3, b4⟩ := ci_reads hr h7
  obtain ⟨m, hm, h⟩ := C40_nak dst src dev sub statusCode statusData details text b4 b3 b1 b2 hc hsd hdet htext hlen
  refine ⟨dev, sub, src, dst, m, e1, e2, e3, e4, ?_, h⟩
  rw [← hm]
  unfold makeNakFor makeNak
  rw [e1, e2, e3, e4]
  rfl

/-- C40: `make_nak_message_v1` answering a message `r`. -/
theorem C40_nak_v1_for (r : Sysex) (hr : View.validate r = .ok true) (h7 : r.isValid = true) :
    ∃ dev src dst m, UniversalSysex.View.deviceId r = .ok dev ∧ View.sourceMuid r = .ok src ∧
      View.destinationMuid r = .ok dst ∧ makeNakV1For r = .ok m ∧ m = ⟨0x7E0000, ciHeader 1 0x7F dev dst src⟩ ∧
      CarriesHeader m 1 0x7F dev dst src := by
  obtain ⟨dev, sub, src, dst, e1, e2, e3, e4, b1, b2, b3, b4⟩ := ci_reads hr h7
  obtain ⟨m, hm, h, h', -⟩ := C40_nak_v1 dst src dev b4 b3 b1
  refine ⟨dev, src, dst, m, e1, e3, e4, ?_, h, h'⟩
  rw [← hm]
  unfold makeNakV1For makeNakV1
  rw [e1, e3, e4]
  rfl

example : View.validate ⟨0x7E0000, [0x7F, 0x0D, 0x20, 2, 1, 2, 3, 4, 5, 6, 7, 8]⟩ = .ok true ∧
    (Sysex.mk 0x7E0000 [0x7F, 0x0D, 0x20, 2, 1, 2, 3, 4, 5, 6, 7, 8]).isValid = true := by decide

/-! ## Changing a message -/

theorem split12 {l : List Byte} (h : 12 ≤ l.length) : ∃ a0 a1 a2 a3 a4 a5 a6 a7 a8 a9 a10 a11 r,
    l = a0 :: a1 :: a2 :: a3 :: a4 :: a5 :: a6 :: a7 :: a8 :: a9 :: a10 :: a11 :: r := by
  match l, h with
  | a0 :: a1 :: a2 :: a3 :: a4 :: a5 :: a6 :: a7 :: a8 :: a9 :: a10 :: a11 :: r, _ =>
    exact ⟨a0, a1, a2, a3, a4, a5, a6, a7, a8, a9, a10, a11, r, rfl⟩

theorem store_ok {s : Sysex} {i : Nat} {b : Byte} (h : i < s.data.length) :
    store s i b = .ok { s with data := s.data.set i b } := by unfold store; rw [if_pos h]

/-- C40: `set_source_muid` changes the source muid and nothing else. -/
theorem C40_set_source_muid (m : Sysex) (v : Word) (hm : 12 ≤ m.data.length) (hv : U28 v) :
    ∃ m', Message.setSourceMuid m v = .ok m' ∧ m'.manufacturerID = m.manufacturerID ∧
      m'.data = m.data.take 4 ++ (le7 4 v.toNat ++ m.data.drop 8) ∧ Message.sourceMuid m' = .ok v ∧
      Message.destinationMuid m' = Message.destinationMuid m := by
  have hv' : decide (v ≤ 268435455) = true := by
    simp only [decide_eq_true_eq, BitVec.le_def, show (268435455 : Word).toNat = 268435455 from rfl]; omega
  have key : Message.setSourceMuid m v = .ok ⟨m.manufacturerID, m.data.take 4 ++ (le7 4 v.toNat ++ m.data.drop 8)⟩ := by
    obtain ⟨id, l⟩ := m
    obtain ⟨a0, a1, a2, a3, a4, a5, a6, a7, a8, a9, a10, a11, r, rfl⟩ := split12 hm
    unfold Message.setSourceMuid
    rw [assert_ok hv', ok_bind, store_ok (by simp), ok_bind, store_ok (by simp), ok_bind, store_ok (by simp), ok_bind,
      store_ok (by simp), ← b28_eq]
    rfl
  refine ⟨_, key, rfl, rfl, read28 (c := m.data.drop 8) hv ?_, ?_⟩
  · have e : (m.data.take 4).length = 4 := by simp; omega
    rw [List.drop_append, e, List.drop_eq_nil_of_le (by omega)]; rfl
  · unfold Message.destinationMuid
    rw [makeUint28_drop, makeUint28_drop]
    have e : (m.data.take 4).length = 4 := by simp; omega
    simp only [List.drop_append, e, le7_length]
    rw [List.drop_eq_nil_of_le (as := m.data.take 4) (by omega), List.drop_eq_nil_of_le (as := le7 4 v.toNat) (by rw [le7_length])]
    rfl

example := C40_set_source_muid ⟨0x7E0000, [0x7F, 0x0D, 0x20, 2, 1, 2, 3, 4, 5, 6, 7, 8]⟩ 0x1234567 (by decide) (by decide)

/-- C40: `set_destination_muid` changes the destination muid and nothing else. -/
theorem C40_set_destination_muid (m : Sysex) (v : Word) (hm : 12 ≤ m.data.length) (hv : U28 v) :
    ∃ m', Message.setDestinationMuid m v = .ok m' ∧ m'.manufacturerID = m.manufacturerID ∧
      m'.data = m.data.take 8 ++ (le7 4 v.toNat ++ m.data.drop 12) ∧ Message.destinationMuid m' = .ok v ∧
      Message.sourceMuid m' = Message.sourceMuid m := by
  have hv' : decide (v ≤ 268435455) = true := by
    simp only [decide_eq_true_eq, BitVec.le_def, show (268435455 : Word).toNat = 268435455 from rfl]; omega
  have key : Message.setDestinationMuid m v = .ok ⟨m.manufacturerID, m.data.take 8 ++ (le7 4 v.toNat ++ m.data.drop 12)⟩ := by
    obtain ⟨id, l⟩ := m
    obtain ⟨a0, a1, a2, a3, a4, a5, a6, a7, a8, a9, a10, a11, r, rfl⟩ := split12 hm
    unfold Message.setDestinationMuid
    rw [assert_ok hv', ok_bind, store_ok (by simp), ok_bind, store_ok (by simp), ok_bind, store_ok (by simp), ok_bind,
      store_ok (by simp), ← b28_eq]
    rfl
  have e : (m.data.take 8).length = 8 := by simp; omega
  refine ⟨_, key, rfl, rfl, read28 (c := m.data.drop 12) hv ?_, ?_⟩
  · rw [List.drop_append, e, List.drop_eq_nil_of_le (by omega)]; rfl
  · obtain ⟨id, l⟩ := m
    obtain ⟨a0, a1, a2, a3, a4, a5, a6, a7, a8, a9, a10, a11, r, rfl⟩ := split12 hm
    unfold Message.sourceMuid
    rw [makeUint28_drop, makeUint28_drop]
    rfl

example := C40_set_destination_muid ⟨0x7E0000, [0x7F, 0x0D, 0x20, 2, 1, 2, 3, 4, 5, 6, 7, 8]⟩ 0x1234567 (by decide) (by decide)

/-- C40: `set_device_id` changes the device id and nothing else. -/
theorem C40_set_device_id (m : Sysex) (i : Byte) (hm : m.data ≠ []) (hi : U7 i) :
    ∃ m', UniversalSysex.Message.setDeviceId m i = .ok m' ∧ m'.manufacturerID = m.manufacturerID ∧
      m'.data = i :: m.data.drop 1 ∧ UniversalSysex.Message.deviceId m' = .ok i := by
  obtain ⟨id, l⟩ := m
  cases l with
  | nil => exact absurd rfl hm
  | cons a l =>
    refine ⟨⟨id, i :: l⟩, ?_, rfl, rfl, rfl⟩
    unfold UniversalSysex.Message.setDeviceId
    rw [assert_ok (by rfl), assert_ok (by
      simp only [decide_eq_true_eq, BitVec.lt_def, show (128 : Byte).toNat = 128 from rfl]; omega)]
    simp only [ok_bind, pure_eq_ok, List.set_cons_zero]
    rw [show i &&& 0x7F = i from by
      have : ∀ i : Byte, i.toNat < 0x80 → i &&& 0x7F = i := by decide +kernel
      exact this i hi]

example := C40_set_device_id ⟨0x7E0000, [0x7F, 0x0D, 0x20, 2, 1, 2, 3, 4, 5, 6, 7, 8]⟩ 0x05 (by decide) (by decide)

/-- C40: `make_invalidate_muid_message`. -/
theorem C40_invalidate_muid (source target : Word) (hs : U28 source) (ht : U28 target) :
    ∃ m, makeInvalidateMuid source target = .ok m ∧
      IsMessage m 2 0x7E 0x7F source 0x0FFFFFFF (le7 4 target.toNat) ["invalidate_muid_view"] ∧
      InvalidateMuidView.targetMuid m = .ok target := by
  refine ⟨msg 2 0x7E 0x7F source broadcastMuid (le7 4 target.toNat), ?_, ?_, ?_⟩
  · unfold makeInvalidateMuid
    rw [makeWithPayload_eq, ok_bind, msg_add28 _ ht]
    rfl
  · refine isMessage [⟨_, InvalidateMuidView.validate, [0x7E]⟩] (by seven) rfl ?_ (by decide) hs broadcast28 (by decide) (by decide)
    ci_valid [InvalidateMuidView.validate]
    exact ⟨ci_type, ci_subtype, by ci_len⟩
  · exact read28 (c := []) ht (by rw [List.append_nil]; rfl)

example := C40_invalidate_muid 0x1234567 0x0765432 (by decide) (by decide)

/-! ## Profile configuration -/

/-- C40: `make_profile_inquiry_message`. -/
theorem C40_profile_inquiry (source dest : Word) (deviceId : Byte) (hs : U28 source) (hd : U28 dest) (hdev : U7 deviceId) :
    ∃ m, makeProfileInquiry source dest deviceId = .ok m ∧
      IsMessage m 2 0x20 deviceId source dest [] ["profile_inquiry_view"] := by
  refine ⟨msg 2 0x20 deviceId source dest [], makeMessage_eq (by decide) hs hd hdev, ?_⟩
  refine isMessage [⟨_, ProfileInquiryView.validate, [0x20]⟩] (by seven) rfl ?_ (by decide) hs hd hdev (by decide)
  ci_valid [ProfileInquiryView.validate]
  exact ⟨ci_type, ci_subtype, by ci_len⟩

example := C40_profile_inquiry 0x1234567 0x0765432 0x05 (by decide) (by decide) (by decide)

theorem profile_destination_reads {v st dev : Byte} {src dst : Word} {p : ProfileId} {n : U16} (hn : U14 n) :
    ProfileIdView.profile (msg v st dev src dst (p.bytes ++ le7 2 n.toNat)) = .ok p ∧
    ProfileDestinationView.numChannels (msg v st dev src dst (p.bytes ++ le7 2 n.toNat)) = .ok n ∧
    ProfileDestinationView.params (msg v st dev src dst (p.bytes ++ le7 2 n.toNat)) = .ok ⟨dev, n⟩ := by
  have hl : ProfileDestinationView.numChannels (msg v st dev src dst (p.bytes ++ le7 2 n.toNat)) = .ok n :=
    read14 (c := []) hn (by rw [List.append_nil]; rfl)
  refine ⟨readProfile rfl, hl, ?_⟩
  unfold ProfileDestinationView.params
  rw [hl]
  rfl

theorem profile_destination_valid {st dev : Byte} {src dst : Word} {p : ProfileId} {n : Nat}
    (hvs : views.filter (fun v => decide (st ∈ v.subtypes)) =
      [⟨"profile_id_view", ProfileIdView.validate, [0x22, 0x23, 0x24, 0x25, 0x26, 0x27]⟩,
       ⟨"profile_destination_view", ProfileDestinationView.validate, [0x22, 0x23, 0x24, 0x25]⟩])
    (h1 : decide (st ≥ 0x22) = true) (h2 : decide (st ≤ 0x25) = true)
    (hs : U28 src) (hd : U28 dst) (hdev : U7 dev) (hp : Seven p.bytes) :
    IsMessage (msg 2 st dev src dst (p.bytes ++ le7 2 n)) 2 st dev src dst (p.bytes ++ le7 2 n)
      ["profile_id_view", "profile_destination_view"] := by
  have h3 : decide (st ≤ 0x27) = true := by
    simp only [decide_eq_true_eq, BitVec.le_def, show (0x25 : Byte).toNat = 0x25 from rfl,
      show (0x27 : Byte).toNat = 0x27 from rfl] at h2 ⊢; omega
  have h4 : st.toNat < 0x80 := by
    simp only [decide_eq_true_eq, BitVec.le_def, show (0x25 : Byte).toNat = 0x25 from rfl] at h2; omega
  refine isMessage _ (by seven) hvs ?_ h4 hs hd hdev (by decide)
  ci_valid [ProfileIdView.validate, ProfileDestinationView.validate]
  exact ⟨⟨rfl, by ci_len, ⟨_, rfl, rfl⟩, ⟨_, rfl, h1⟩, _, rfl, h3⟩,
    rfl, by ci_len, ⟨_, rfl, rfl⟩, ⟨_, rfl, h1⟩, _, rfl, h2⟩

/-- C40: `make_profile_on_request`. -/
theorem C40_profile_on (source dest : Word) (p : ProfileId) (d : ProfileDestination) (hs : U28 source) (hd : U28 dest)
    (hp : Seven p.bytes) (hscope : U7 d.scope) (hn : U14 d.numChannels) :
    ∃ m, makeProfileOn source dest p d = .ok m ∧
      IsMessage m 2 0x22 d.scope source dest (p.bytes ++ le7 2 d.numChannels.toNat)
        ["profile_id_view", "profile_destination_view"] ∧
      ProfileIdView.profile m = .ok p ∧ ProfileDestinationView.numChannels m = .ok d.numChannels ∧
      ProfileDestinationView.params m = .ok d := by
  refine ⟨msg 2 0x22 d.scope source dest (p.bytes ++ le7 2 d.numChannels.toNat), ?_,
    profile_destination_valid rfl (by decide) (by decide) hs hd hscope hp, profile_destination_reads hn⟩
  unfold makeProfileOn
  rw [makeWithPayload_eq, ok_bind, msg_addData _ (by simp [ProfileId.bytes]), ok_bind, msg_add14 _ hn]
  rfl

example := C40_profile_on 0x1234567 0x0765432 ⟨0x7E, 0x21, 0x00, 0x01, 0x02⟩ ⟨0x7F, 3⟩ (by decide) (by decide) (by decide)
  (by decide) (by decide)

/-- C40: `make_profile_off_request`. The number of channels of the destination is not sent: the field is zero. -/
theorem C40_profile_off (source dest : Word) (p : ProfileId) (d : ProfileDestination) (hs : U28 source) (hd : U28 dest)
    (hp : Seven p.bytes) (hscope : U7 d.scope) :
    ∃ m, makeProfileOff source dest p d = .ok m ∧
      IsMessage m 2 0x23 d.scope source dest (p.bytes ++ [0x00, 0x00]) ["profile_id_view", "profile_destination_view"] ∧
      ProfileIdView.profile m = .ok p ∧ ProfileDestinationView.numChannels m = .ok 0 ∧
      ProfileDestinationView.params m = .ok ⟨d.scope, 0⟩ := by
  refine ⟨msg 2 0x23 d.scope source dest (p.bytes ++ le7 2 (0 : U16).toNat), ?_,
    profile_destination_valid rfl (by decide) (by decide) hs hd hscope hp, profile_destination_reads (by decide)⟩
  unfold makeProfileOff
  rw [makeWithPayload_eq, ok_bind, msg_addData _ (by simp [ProfileId.bytes]), ok_bind, msg_add14 _ (by decide)]
  rfl

example := C40_profile_off 0x1234567 0x0765432 ⟨0x7E, 0x21, 0x00, 0x01, 0x02⟩ ⟨0x7F, 3⟩ (by decide) (by decide) (by decide)
  (by decide)

/-- C40: `make_profile_enabled_notification`. -/
theorem C40_profile_enabled (source dest : Word) (p : ProfileId) (d : ProfileDestination) (hs : U28 source)
    (hd : U28 dest) (hp : Seven p.bytes) (hscope : U7 d.scope) (hn : U14 d.numChannels) :
    ∃ m, makeProfileEnabled source dest p d = .ok m ∧
      IsMessage m 2 0x24 d.scope source dest (p.bytes ++ le7 2 d.numChannels.toNat)
        ["profile_id_view", "profile_destination_view"] ∧
      ProfileIdView.profile m = .ok p ∧ ProfileDestinationView.numChannels m = .ok d.numChannels ∧
      ProfileDestinationView.params m = .ok d := by
  refine ⟨msg 2 0x24 d.scope source dest (p.bytes ++ le7 2 d.numChannels.toNat), ?_,
    profile_destination_valid rfl (by decide) (by decide) hs hd hscope hp, profile_destination_reads hn⟩
  unfold makeProfileEnabled
  rw [makeWithPayload_eq, ok_bind, msg_addData _ (by simp [ProfileId.bytes]), ok_bind, msg_add14 _ hn]
  rfl

example := C40_profile_enabled 0x1234567 0x0765432 ⟨0x7E, 0x21, 0x00, 0x01, 0x02⟩ ⟨0x7F, 3⟩ (by decide) (by decide) (by decide)
  (by decide) (by decide)

/-- C40: `make_profile_disabled_notification`. -/
theorem C40_profile_disabled (source dest : Word) (p : ProfileId) (d : ProfileDestination) (hs : U28 source)
    (hd : U28 dest) (hp : Seven p.bytes) (hscope : U7 d.scope) (hn : U14 d.numChannels) :
    ∃ m, makeProfileDisabled source dest p d = .ok m ∧
      IsMessage m 2 0x25 d.scope source dest (p.bytes ++ le7 2 d.numChannels.toNat)
        ["profile_id_view", "profile_destination_view"] ∧
      ProfileIdView.profile m = .ok p ∧ ProfileDestinationView.numChannels m = .ok d.numChannels ∧
      ProfileDestinationView.params m = .ok d := by
  refine ⟨msg 2 0x25 d.scope source dest (p.bytes ++ le7 2 d.numChannels.toNat), ?_,
    profile_destination_valid rfl (by decide) (by decide) hs hd hscope hp, profile_destination_reads hn⟩
  unfold makeProfileDisabled
  rw [makeWithPayload_eq, ok_bind, msg_addData _ (by simp [ProfileId.bytes]), ok_bind, msg_add14 _ hn]
  rfl

example := C40_profile_disabled 0x1234567 0x0765432 ⟨0x7E, 0x21, 0x00, 0x01, 0x02⟩ ⟨0x7F, 3⟩ (by decide) (by decide) (by decide)
  (by decide) (by decide)

/-- C40: `make_profile_added_notification`. -/
theorem C40_profile_added (source dest : Word) (p : ProfileId) (deviceId : Byte) (hs : U28 source) (hd : U28 dest)
    (hp : Seven p.bytes) (hdev : U7 deviceId) :
    ∃ m, makeProfileAdded source dest p deviceId = .ok m ∧
      IsMessage m 2 0x26 deviceId source dest p.bytes ["profile_id_view"] ∧ ProfileIdView.profile m = .ok p := by
  refine ⟨msg 2 0x26 deviceId source dest p.bytes, ?_, ?_, readProfile (c := []) rfl⟩
  · unfold makeProfileAdded
    rw [makeWithPayload_eq, ok_bind, msg_addData _ (by simp [ProfileId.bytes])]
    rfl
  · refine isMessage [⟨_, ProfileIdView.validate, [0x22, 0x23, 0x24, 0x25, 0x26, 0x27]⟩] hp rfl ?_ (by decide) hs hd hdev
      (by decide)
    ci_valid [ProfileIdView.validate]
    exact ⟨rfl, by ci_len, ⟨_, rfl, rfl⟩, ⟨_, rfl, rfl⟩, _, rfl, rfl⟩

example := C40_profile_added 0x1234567 0x0765432 ⟨0x7E, 0x21, 0x00, 0x01, 0x02⟩ 0x05 (by decide) (by decide) (by decide)
  (by decide)

/-- C40: `make_profile_removed_notification`. -/
theorem C40_profile_removed (source dest : Word) (p : ProfileId) (deviceId : Byte) (hs : U28 source) (hd : U28 dest)
    (hp : Seven p.bytes) (hdev : U7 deviceId) :
    ∃ m, makeProfileRemoved source dest p deviceId = .ok m ∧
      IsMessage m 2 0x27 deviceId source dest p.bytes ["profile_id_view"] ∧ ProfileIdView.profile m = .ok p := by
  refine ⟨msg 2 0x27 deviceId source dest p.bytes, ?_, ?_, readProfile (c := []) rfl⟩
  · unfold makeProfileRemoved
    rw [makeWithPayload_eq, ok_bind, msg_addData _ (by simp [ProfileId.bytes])]
    rfl
  · refine isMessage [⟨_, ProfileIdView.validate, [0x22, 0x23, 0x24, 0x25, 0x26, 0x27]⟩] hp rfl ?_ (by decide) hs hd hdev
      (by decide)
    ci_valid [ProfileIdView.validate]
    exact ⟨rfl, by ci_len, ⟨_, rfl, rfl⟩, ⟨_, rfl, rfl⟩, _, rfl, rfl⟩

example := C40_profile_removed 0x1234567 0x0765432 ⟨0x7E, 0x21, 0x00, 0x01, 0x02⟩ 0x05 (by decide) (by decide) (by decide)
  (by decide)

/-- C40: `make_profile_details_inquiry`. -/
theorem C40_profile_details_inquiry (source dest : Word) (p : ProfileId) (target deviceId : Byte) (hs : U28 source)
    (hd : U28 dest) (hp : Seven p.bytes) (ht : U7 target) (hdev : U7 deviceId) :
    ∃ m, makeProfileDetailsInquiry source dest p target deviceId = .ok m ∧
      IsMessage m 2 0x28 deviceId source dest (p.bytes ++ [target]) ["profile_details_inquiry_view"] ∧
      ProfileDetailsInquiryView.profile m = .ok p ∧ ProfileDetailsInquiryView.target m = .ok target := by
  refine ⟨msg 2 0x28 deviceId source dest (p.bytes ++ [target]), ?_, ?_, readProfile rfl, rfl⟩
  · unfold makeProfileDetailsInquiry
    rw [makeWithPayload_eq, ok_bind, msg_addData _ (by simp [ProfileId.bytes]), ok_bind, msg_add7 _ ht]
    rfl
  · refine isMessage [⟨_, ProfileDetailsInquiryView.validate, [0x28]⟩] (by seven) rfl ?_ (by decide) hs hd hdev (by decide)
    ci_valid [ProfileDetailsInquiryView.validate]
    exact ⟨rfl, by ci_len, ⟨_, rfl, rfl⟩, _, rfl, rfl⟩

/-- C40: `make_profile_details_reply`. -/
theorem C40_profile_details_reply (source dest : Word) (p : ProfileId) (target : Byte) (data : List Byte)
    (deviceId : Byte) (hs : U28 source) (hd : U28 dest) (hp : Seven p.bytes) (ht : U7 target) (hdata : Seven data)
    (hlen : data.length < 2 ^ 14) (hdev : U7 deviceId) :
    ∃ m, makeProfileDetailsReply source dest p target data deviceId = .ok m ∧
      IsMessage m 2 0x29 deviceId source dest (p.bytes ++ ([target] ++ (le7 2 data.length ++ data)))
        ["profile_details_reply_view"] ∧
      ProfileDetailsReplyView.profile m = .ok p ∧ ProfileDetailsReplyView.target m = .ok target ∧
      ProfileDetailsReplyView.dataLength m = .ok (BitVec.ofNat 16 data.length) ∧
      ProfileDetailsReplyView.data m = .ok data := by
  have hl : ProfileDetailsReplyView.dataLength (msg 2 0x29 deviceId source dest
      (p.bytes ++ ([target] ++ (le7 2 data.length ++ data)))) = .ok (BitVec.ofNat 16 data.length) :=
    read14_ofNat (c := data) hlen rfl
  have e : (BitVec.ofNat 16 data.length).toNat = data.length := by rw [BitVec.toNat_ofNat]; omega
  refine ⟨msg 2 0x29 deviceId source dest (p.bytes ++ ([target] ++ (le7 2 data.length ++ data))), ?_, ?_,
    readProfile rfl, rfl, hl, ?_⟩
  · unfold makeProfileDetailsReply
    rw [makeWithPayload_eq, ok_bind, msg_addData _ (by simp [ProfileId.bytes]), ok_bind, msg_add7 _ ht, ok_bind,
      msg_add14n _ hlen, ok_bind, msg_append]
    simp only [List.nil_append, List.append_assoc, pure_eq_ok]
  · refine isMessage [⟨_, ProfileDetailsReplyView.validate, [0x29]⟩] (by seven) rfl ?_ (by decide) hs hd hdev (by decide)
    ci_valid [ProfileDetailsReplyView.validate]
    exact ⟨rfl, by ci_len, ⟨_, hl, by ci_len⟩, ⟨_, rfl, rfl⟩, _, rfl, rfl⟩
  · unfold ProfileDetailsReplyView.data
    rw [hl, ok_bind, e]
    exact readSlice (c := []) (by ci_len) (by rw [List.append_nil]; rfl) rfl

example : Seven (ProfileId.mk 0x7E 0x21 0x00 0x01 0x02).bytes := by decide

/-! ## Property exchange and process inquiry -/

theorem pe_capabilities {st : Byte} (h1 : decide (st ≥ 0x30) = true) (h2 : decide (st ≤ 0x31) = true)
    (hvs : views.filter (fun v => decide (st ∈ v.subtypes)) = [⟨"property_exchange_capabilities_view",
      PropertyExchangeCapabilitiesView.validate, [0x30, 0x31]⟩]) (source dest : Word) (maxRequests deviceId : Byte)
    (hs : U28 source) (hd : U28 dest) (hm : U7 maxRequests) (hdev : U7 deviceId) :
    ∃ m, makePeCapabilities st source dest maxRequests deviceId = .ok m ∧
      IsMessage m 2 st deviceId source dest [maxRequests, 0x00, 0x00] ["property_exchange_capabilities_view"] ∧
      PropertyExchangeCapabilitiesView.maxRequests m = .ok maxRequests ∧
      PropertyExchangeCapabilitiesView.versionMajor m = .ok 0 ∧
      PropertyExchangeCapabilitiesView.versionMinor m = .ok 0 := by
  have h4 : st.toNat < 0x80 := by
    simp only [decide_eq_true_eq, BitVec.le_def, show (0x31 : Byte).toNat = 0x31 from rfl] at h2; omega
  refine ⟨msg 2 st deviceId source dest [maxRequests, 0x00, 0x00], ?_, ?_, rfl, rfl, rfl⟩
  · unfold makePeCapabilities
    rw [makeWithPayload_eq, ok_bind, msg_addData _ (by simp)]
    rfl
  · refine isMessage _ (by seven) hvs ?_ h4 hs hd hdev (by decide)
    ci_valid [PropertyExchangeCapabilitiesView.validate]
    refine ⟨rfl, by ci_len, ⟨_, rfl, rfl⟩, ⟨_, rfl, h1⟩, ⟨_, rfl, h2⟩, ?_⟩
    rw [orElse_true]
    exact Or.inr ⟨rfl, by rw [sizeAtLeast_true]; ci_len⟩

/-- C40: `make_property_exchange_capabilities_inquiry`. -/
theorem C40_property_exchange_capabilities_inquiry (source dest : Word) (maxRequests deviceId : Byte)
    (hs : U28 source) (hd : U28 dest) (hm : U7 maxRequests) (hdev : U7 deviceId) :
    ∃ m, makePeCapabilitiesInquiry source dest maxRequests deviceId = .ok m ∧
      IsMessage m 2 0x30 deviceId source dest [maxRequests, 0x00, 0x00] ["property_exchange_capabilities_view"] ∧
      PropertyExchangeCapabilitiesView.maxRequests m = .ok maxRequests ∧
      PropertyExchangeCapabilitiesView.versionMajor m = .ok 0 ∧
      PropertyExchangeCapabilitiesView.versionMinor m = .ok 0 :=
  pe_capabilities (by decide) (by decide) rfl source dest maxRequests deviceId hs hd hm hdev

example := C40_property_exchange_capabilities_inquiry 0x1234567 0x0765432 0x05 0x0A (by decide) (by decide) (by decide)
  (by decide)

/-- C40: `make_property_exchange_capabilities_reply`. -/
theorem C40_property_exchange_capabilities_reply (source dest : Word) (maxRequests deviceId : Byte)
    (hs : U28 source) (hd : U28 dest) (hm : U7 maxRequests) (hdev : U7 deviceId) :
    ∃ m, makePeCapabilitiesReply source dest maxRequests deviceId = .ok m ∧
      IsMessage m 2 0x31 deviceId source dest [maxRequests, 0x00, 0x00] ["property_exchange_capabilities_view"] ∧
      PropertyExchangeCapabilitiesView.maxRequests m = .ok maxRequests ∧
      PropertyExchangeCapabilitiesView.versionMajor m = .ok 0 ∧
      PropertyExchangeCapabilitiesView.versionMinor m = .ok 0 :=
  pe_capabilities (by decide) (by decide) rfl source dest maxRequests deviceId hs hd hm hdev

example := C40_property_exchange_capabilities_reply 0x1234567 0x0765432 0x05 0x0A (by decide) (by decide) (by decide)
  (by decide)

/-- C40: `make_process_inquiry_capabilities_inquiry`; there is no view of its own for this message. -/
theorem C40_process_inquiry_capabilities_inquiry (source dest : Word) (deviceId : Byte) (hs : U28 source)
    (hd : U28 dest) (hdev : U7 deviceId) :
    ∃ m, makeProcessInquiryCapabilitiesInquiry source dest deviceId = .ok m ∧
      IsMessage m 2 0x40 deviceId source dest [] [] := by
  exact ⟨msg 2 0x40 deviceId source dest [], makeMessage_eq (by decide) hs hd hdev,
    isMessage [] (by seven) rfl (by simp) (by decide) hs hd hdev (by decide)⟩

example := C40_process_inquiry_capabilities_inquiry 0x1234567 0x0765432 0x05 (by decide) (by decide) (by decide)

/-- C40: `make_process_inquiry_capabilities_reply`. -/
theorem C40_process_inquiry_capabilities_reply (source dest : Word) (features deviceId : Byte) (hs : U28 source)
    (hd : U28 dest) (hf : U7 features) (hdev : U7 deviceId) :
    ∃ m, makeProcessInquiryCapabilitiesReply source dest features deviceId = .ok m ∧
      IsMessage m 2 0x41 deviceId source dest [features] ["process_inquiry_capabilities_reply_view"] ∧
      ProcessInquiryCapabilitiesReplyView.supportedFeatures m = .ok features := by
  refine ⟨msg 2 0x41 deviceId source dest [features], ?_, ?_, rfl⟩
  · unfold makeProcessInquiryCapabilitiesReply
    rw [makeWithPayload_eq, ok_bind, msg_addData _ (by simp)]
    rfl
  · refine isMessage [⟨_, ProcessInquiryCapabilitiesReplyView.validate, [0x41]⟩] (by seven) rfl ?_ (by decide) hs hd hdev
      (by decide)
    ci_valid [ProcessInquiryCapabilitiesReplyView.validate]
    exact ⟨rfl, by ci_len, ⟨_, rfl, rfl⟩, _, rfl, rfl⟩

example := C40_process_inquiry_capabilities_reply 0x1234567 0x0765432 0x05 0x0A (by decide) (by decide) (by decide) (by decide)

/-- C40: `make_midi_message_report_inquiry`. -/
theorem C40_midi_message_report_inquiry (source dest : Word) (control system channel note deviceId : Byte)
    (hs : U28 source) (hd : U28 dest) (h1 : U7 control) (h2 : U7 system) (h3 : U7 channel) (h4 : U7 note)
    (hdev : U7 deviceId) :
    ∃ m, makeMidiMessageReportInquiry source dest control system channel note deviceId = .ok m ∧
      IsMessage m 2 0x42 deviceId source dest [control, system, 0x00, channel, note]
        ["midi_message_report_inquiry_view"] ∧
      MidiMessageReportInquiryView.messageDataControl m = .ok control ∧
      MidiMessageReportInquiryView.systemMessageTypes m = .ok system ∧
      MidiMessageReportInquiryView.channelControllerMessageTypes m = .ok channel ∧
      MidiMessageReportInquiryView.noteDataMessageTypes m = .ok note := by
  refine ⟨msg 2 0x42 deviceId source dest [control, system, 0x00, channel, note], ?_, ?_, rfl, rfl, rfl, rfl⟩
  · unfold makeMidiMessageReportInquiry
    rw [makeWithPayload_eq, ok_bind, msg_addData _ (by simp)]
    rfl
  · refine isMessage [⟨_, MidiMessageReportInquiryView.validate, [0x42]⟩] (by seven) rfl ?_ (by decide) hs hd hdev
      (by decide)
    ci_valid [MidiMessageReportInquiryView.validate]
    exact ⟨rfl, by ci_len, ⟨_, rfl, rfl⟩, _, rfl, rfl⟩

example := C40_midi_message_report_inquiry 0x1234567 0x0765432 0x05 0x0A 0x21 0x7F 0x10 (by decide) (by decide) (by decide)
  (by decide) (by decide) (by decide) (by decide)

/-- C40: `make_midi_message_report_reply`. -/
theorem C40_midi_message_report_reply (source : Word) (system channel note deviceId : Byte)
    (hs : U28 source) (h2 : U7 system) (h3 : U7 channel) (h4 : U7 note) (hdev : U7 deviceId) :
    ∃ m, makeMidiMessageReportReply source system channel note deviceId = .ok m ∧
      IsMessage m 2 0x43 deviceId source 0x0FFFFFFF [system, 0x00, channel, note] ["midi_message_report_reply_view"] ∧
      MidiMessageReportReplyView.systemMessageTypes m = .ok system ∧
      MidiMessageReportReplyView.channelControllerMessageTypes m = .ok channel ∧
      MidiMessageReportReplyView.noteDataMessageTypes m = .ok note := by
  refine ⟨msg 2 0x43 deviceId source broadcastMuid [system, 0x00, channel, note], ?_, ?_, rfl, rfl, rfl⟩
  · unfold makeMidiMessageReportReply
    rw [makeWithPayload_eq, ok_bind, msg_addData _ (by simp)]
    rfl
  · refine isMessage [⟨_, MidiMessageReportReplyView.validate, [0x43]⟩] (by seven) rfl ?_ (by decide) hs broadcast28 hdev
      (by decide)
    ci_valid [MidiMessageReportReplyView.validate]
    exact ⟨rfl, by ci_len, ⟨_, rfl, rfl⟩, _, rfl, rfl⟩

example := C40_midi_message_report_reply 0x1234567 0x05 0x0A 0x21 0x7F (by decide) (by decide) (by decide) (by decide)
  (by decide)

/-- C40: `make_midi_message_report_end`; there is no view of its own for this message. -/
theorem C40_midi_message_report_end (source : Word) (deviceId : Byte) (hs : U28 source) (hdev : U7 deviceId) :
    ∃ m, makeMidiMessageReportEnd source deviceId = .ok m ∧ IsMessage m 2 0x44 deviceId source 0x0FFFFFFF [] [] := by
  exact ⟨msg 2 0x44 deviceId source broadcastMuid [], makeMessage_eq (by decide) hs broadcast28 hdev,
    isMessage [] (by seven) rfl (by simp) (by decide) hs broadcast28 hdev (by decide)⟩

example := C40_midi_message_report_end 0x1234567 0x05 (by decide) (by decide)

end CI
end Midi
