import Verif.Props.Profiles
import Verif.Props.CIPayload
import Verif.Spec.Said
import Verif.Props.ByteStreamSysex
import Verif.Props.CITransport

/-!
# C106: everything said in MIDI-CI is understood
-/

namespace Midi
open Spec UniversalSysex CI

/-! ## Reading -/

theorem understand_eq {m : Sysex} {v st dev : Byte} {src dst : Word} (hc : CarriesHeader m v st dev src dst) {c : Content}
    (h : readContent st.toNat m = .ok (some c)) : understand m = .ok (some ⟨src, dst, dev, c⟩) := by
  obtain ⟨-, h1, -, h2, h3, -, h4, h5, -⟩ := hc
  have e : asView View.validate m = .ok (some m) := by
    obtain ⟨b, a1, a2, -⟩ := C39_capability_inquiry m
    rw [h1] at a1
    rw [a2, ← Except.ok.inj a1]
    rfl
  unfold understand
  rw [e, ok_bind]
  dsimp only
  rw [h3, ok_bind, h, ok_bind]
  dsimp only
  rw [h4, ok_bind, h5, ok_bind, h2]
  rfl

theorem said_view {m : Sysex} {v st dev : Byte} {src dst : Word} {payload : List Byte} {names : List String}
    (h : IsMessage m v st dev src dst payload names) (w : ViewClass) (hw : w ∈ views) {acc : Prop} (hs : ViewSafe w.validate m acc)
    (hn : w.name ∈ names) : asView w.validate m = .ok (some m) := by
  obtain ⟨b, h1, h2, -⟩ := hs
  have := accepting_exact m views names (by decide) h.2.2.2 w hw
  rw [h1] at this
  rw [h2, Except.ok.inj this]
  simp [hn]

theorem reading_ok {val : Sysex → Except Fault Bool} {m : Sysex} {read : Sysex → Except Fault Content} {c : Content}
    (h1 : asView val m = .ok (some m)) (h2 : read m = .ok c) : reading val m read = .ok (some c) := by
  unfold reading
  rw [h1, ok_bind]
  dsimp only
  rw [h2]
  rfl

theorem reading_noFault {val : Sysex → Except Fault Bool} {m : Sysex} {read : Sysex → Except Fault Content} {acc : Prop}
    (hs : ViewSafe val m acc) (h : NoFault (UniversalSysex.View.deviceId m) ∧ NoFault (CI.View.messageVersion m) ∧ acc → NoFault (read m)) :
    NoFault (reading val m read) := by
  obtain ⟨b, h1, h2, h3⟩ := hs
  unfold reading
  rw [h2]
  cases b with
  | false => exact NoFault.ok _
  | true =>
    obtain ⟨a1, -, -, a2, -, -, a3⟩ := h3 rfl
    obtain ⟨c, hc⟩ := h ⟨a1, a2, a3⟩
    rw [if_pos rfl, ok_bind]
    dsimp only
    rw [hc]
    exact NoFault.ok _

theorem viewOf_bytes (l : List Byte) : (viewOf l).bytes = l := by
  unfold viewOf
  split
  · next h => rw [h]
  · rfl

/-- Reading the contents of anything that was said. -/
theorem said_ok (x : Said) (hx : x.Ok) : ∃ m, x.say = .ok m ∧ m.manufacturerID = 0x7E0000 ∧ m.isValid = true ∧ 12 ≤ m.data.length ∧
    understand m = .ok (some x) := by
  obtain ⟨src, dst, dev, content⟩ := x
  obtain ⟨hs, hd, hdev, hx⟩ := hx
  have fin : ∀ {m : Sysex} {v st : Byte} {payload : List Byte} {names : List String}, IsMessage m v st dev src dst payload names →
      readContent st.toNat m = .ok (some content) → m.manufacturerID = 0x7E0000 ∧ m.isValid = true ∧ 12 ≤ m.data.length ∧
        understand m = .ok (some ⟨src, dst, dev, content⟩) := by
    intro m v st payload names h hr
    refine ⟨h.1, h.2.2.1.1, ?_, understand_eq h.2.2.1 hr⟩
    rw [h.2.1, List.length_append, ciHeader_length]
    omega
  cases content with
  | discoveryInquiryV1 i c mx =>
    obtain ⟨rfl, rfl, h1, h2, h3⟩ := hx
    obtain ⟨m, e, h, f1, f2, f3, -⟩ := C40_discovery_inquiry_v1 src i c mx hs h1 h2 h3
    refine ⟨m, e, fin h (reading_ok (said_view h ⟨"discovery_inquiry_view", DiscoveryInquiryView.validate, [0x70]⟩ (by simp [views]) (C39_discovery_inquiry_partial m (.inl ?_)) (by simp)) ?_)⟩
    · rw [h.2.1, List.length_append, ciHeader_length]; omega
    · rw [h.2.2.1.2.2.2.2.2.1, ok_bind, if_pos (by decide), f1, ok_bind, f2, ok_bind, f3]; rfl
  | discoveryInquiry i c mx o =>
    obtain ⟨rfl, rfl, h1, h2, h3, h4⟩ := hx
    obtain ⟨m, e, h, f1, f2, f3, f4⟩ := C40_discovery_inquiry src i c mx o hs h1 h2 h3 h4
    refine ⟨m, e, fin h (reading_ok (said_view h ⟨"discovery_inquiry_view", DiscoveryInquiryView.validate, [0x70]⟩ (by simp [views]) (C39_discovery_inquiry_partial m (.inl (by rw [h.2.1, List.length_append, ciHeader_length]; omega))) (by simp)) ?_)⟩
    rw [h.2.2.1.2.2.2.2.2.1, ok_bind, if_neg (by decide), f1, ok_bind, f2, ok_bind, f3, ok_bind, f4]; rfl
  | discoveryReplyV1 i c mx =>
    obtain ⟨rfl, h1, h2, h3⟩ := hx
    obtain ⟨m, e, h, f1, f2, f3, -⟩ := C40_discovery_reply_v1 src dst i c mx hs hd h1 h2 h3
    refine ⟨m, e, fin h (reading_ok (said_view h ⟨"discovery_reply_view", DiscoveryReplyView.validate, [0x71]⟩ (by simp [views]) (C39_discovery_reply_partial m (.inl (by rw [h.2.1, List.length_append, ciHeader_length]; omega))) (by simp)) ?_)⟩
    rw [h.2.2.1.2.2.2.2.2.1, ok_bind, if_pos (by decide), f1, ok_bind, f2, ok_bind, f3]; rfl
  | discoveryReply i c mx o f =>
    obtain ⟨rfl, h1, h2, h3, h4, h5⟩ := hx
    obtain ⟨m, e, h, f1, f2, f3, f4, f5⟩ := C40_discovery_reply src dst i c mx o f hs hd h1 h2 h3 h4 h5
    refine ⟨m, e, fin h (reading_ok (said_view h ⟨"discovery_reply_view", DiscoveryReplyView.validate, [0x71]⟩ (by simp [views]) (C39_discovery_reply_partial m (.inl (by rw [h.2.1, List.length_append, ciHeader_length]; omega))) (by simp)) ?_)⟩
    rw [h.2.2.1.2.2.2.2.2.1, ok_bind, if_neg (by decide), f1, ok_bind, f2, ok_bind, f3, ok_bind, f4, ok_bind, f5]; rfl
  | endpointInquiry st =>
    obtain ⟨rfl, h1⟩ := hx
    obtain ⟨m, e, h, f1⟩ := C40_endpoint_information_inquiry src dst st hs hd h1
    refine ⟨m, e, fin h (reading_ok (said_view h ⟨"endpoint_information_inquiry_view", EndpointInformationInquiryView.validate, [0x72]⟩ (by simp [views]) (C39_endpoint_information_inquiry m) (by simp)) ?_)⟩
    rw [f1]; rfl
  | endpointReply st data =>
    obtain ⟨rfl, h1, h2, h3⟩ := hx
    obtain ⟨m, e, h, f1, -, f2⟩ := C40_endpoint_information_reply src dst st data hs hd h1 h2 h3
    refine ⟨m, e, fin h (reading_ok (said_view h ⟨"endpoint_information_reply_view", EndpointInformationReplyView.validate, [0x73]⟩ (by simp [views]) (C39_endpoint_information_reply m) (by simp)) ?_)⟩
    rw [f1, ok_bind, f2]; rfl
  | ack t c d details text =>
    obtain ⟨h1, h2, h3, h4, h5, h6⟩ := hx
    obtain ⟨m, e, h, f1, f2, f3, f4, -, f5⟩ := C40_ack src dst dev t c d details text hs hd hdev h1 h2 h3 h4 h5 h6
    refine ⟨m, e, fin h (reading_ok (said_view h ⟨"ack_view", AckView.validate, [0x7D]⟩ (by simp [views]) (C39_ack m) (by simp)) ?_)⟩
    rw [f1, ok_bind, f2, ok_bind, f3, ok_bind, f4, ok_bind, f5]; rfl
  | nakV1 =>
    obtain ⟨m, e, e2, h, -⟩ := C40_nak_v1 src dst dev hs hd hdev
    refine ⟨m, e, by rw [e2], h.1, by rw [e2, ciHeader_length], understand_eq h ?_⟩
    show (do if (← View.messageVersion m) < 2 then return some Content.nakV1 else _) = _
    rw [h.2.2.2.2.2.1]
    rfl
  | nak t c d details text =>
    obtain ⟨h1, h2, h3, h4, h5, h6⟩ := hx
    obtain ⟨m, e, h, f1, f2, f3, f4, -, f5⟩ := C40_nak src dst dev t c d details text hs hd hdev h1 h2 h3 h4 h5 h6
    refine ⟨m, e, fin h ?_⟩
    show (do if (← View.messageVersion m) < 2 then return some Content.nakV1 else _) = _
    rw [h.2.2.1.2.2.2.2.2.1, ok_bind, if_neg (by decide)]
    refine reading_ok (said_view h ⟨"nak_view", NakView.validate, [0x7F]⟩ (by simp [views]) (C39_nak m) (by simp)) ?_
    rw [f1, ok_bind, f2, ok_bind, f3, ok_bind, f4, ok_bind, f5]; rfl
  | invalidateMuid target =>
    obtain ⟨rfl, rfl, h1⟩ := hx
    obtain ⟨m, e, h, f1⟩ := C40_invalidate_muid src target hs h1
    refine ⟨m, e, fin h (reading_ok (said_view h ⟨"invalidate_muid_view", InvalidateMuidView.validate, [0x7E]⟩ (by simp [views]) (C39_invalidate_muid m) (by simp)) ?_)⟩
    rw [f1]; rfl
  | profileInquiry =>
    obtain ⟨m, e, h⟩ := C40_profile_inquiry src dst dev hs hd hdev
    refine ⟨m, e, fin h (reading_ok (said_view h ⟨"profile_inquiry_view", ProfileInquiryView.validate, [0x20]⟩ (by simp [views]) (C39_profile_inquiry m) (by simp)) ?_)⟩
    rfl
  | profileInquiryReply en dis =>
    obtain ⟨h1, h2, h3, h4⟩ := hx
    obtain ⟨m, e, h, -, -, -, -, f1, f2⟩ := C41_profile_inquiry_reply src dst en dis dev hs hd hdev h1 h2 h3 h4
    refine ⟨m, e, fin h (reading_ok (said_view h ⟨"profile_inquiry_reply_view", ProfileInquiryReplyView.validate, [0x21]⟩ (by simp [views]) (C39_profile_inquiry_reply m) (by simp)) ?_)⟩
    rw [f1, ok_bind, f2]; rfl
  | profileOn p n =>
    obtain ⟨h1, h2⟩ := hx
    obtain ⟨m, e, h, f1, f2, -⟩ := C40_profile_on src dst p ⟨dev, n⟩ hs hd h1 hdev h2
    refine ⟨m, e, fin h (reading_ok (said_view h ⟨"profile_destination_view", ProfileDestinationView.validate, [0x22, 0x23, 0x24, 0x25]⟩ (by simp [views]) (C39_profile_destination m) (by simp)) ?_)⟩
    rw [f1, ok_bind, f2]; rfl
  | profileOff p =>
    obtain ⟨m, e, h, f1, -⟩ := C40_profile_off src dst p ⟨dev, 0⟩ hs hd hx hdev
    refine ⟨m, e, fin h (reading_ok (said_view h ⟨"profile_id_view", ProfileIdView.validate, [0x22, 0x23, 0x24, 0x25, 0x26, 0x27]⟩ (by simp [views]) (C39_profile_id m) (by simp)) ?_)⟩
    rw [f1]; rfl
  | profileEnabled p n =>
    obtain ⟨h1, h2⟩ := hx
    obtain ⟨m, e, h, f1, f2, -⟩ := C40_profile_enabled src dst p ⟨dev, n⟩ hs hd h1 hdev h2
    refine ⟨m, e, fin h (reading_ok (said_view h ⟨"profile_destination_view", ProfileDestinationView.validate, [0x22, 0x23, 0x24, 0x25]⟩ (by simp [views]) (C39_profile_destination m) (by simp)) ?_)⟩
    rw [f1, ok_bind, f2]; rfl
  | profileDisabled p n =>
    obtain ⟨h1, h2⟩ := hx
    obtain ⟨m, e, h, f1, f2, -⟩ := C40_profile_disabled src dst p ⟨dev, n⟩ hs hd h1 hdev h2
    refine ⟨m, e, fin h (reading_ok (said_view h ⟨"profile_destination_view", ProfileDestinationView.validate, [0x22, 0x23, 0x24, 0x25]⟩ (by simp [views]) (C39_profile_destination m) (by simp)) ?_)⟩
    rw [f1, ok_bind, f2]; rfl
  | profileAdded p =>
    obtain ⟨m, e, h, f1⟩ := C40_profile_added src dst p dev hs hd hx hdev
    refine ⟨m, e, fin h (reading_ok (said_view h ⟨"profile_id_view", ProfileIdView.validate, [0x22, 0x23, 0x24, 0x25, 0x26, 0x27]⟩ (by simp [views]) (C39_profile_id m) (by simp)) ?_)⟩
    rw [f1]; rfl
  | profileRemoved p =>
    obtain ⟨m, e, h, f1⟩ := C40_profile_removed src dst p dev hs hd hx hdev
    refine ⟨m, e, fin h (reading_ok (said_view h ⟨"profile_id_view", ProfileIdView.validate, [0x22, 0x23, 0x24, 0x25, 0x26, 0x27]⟩ (by simp [views]) (C39_profile_id m) (by simp)) ?_)⟩
    rw [f1]; rfl
  | profileDetailsInquiry p t =>
    obtain ⟨h1, h2⟩ := hx
    obtain ⟨m, e, h, f1, f2⟩ := C40_profile_details_inquiry src dst p t dev hs hd h1 h2 hdev
    refine ⟨m, e, fin h (reading_ok (said_view h ⟨"profile_details_inquiry_view", ProfileDetailsInquiryView.validate, [0x28]⟩ (by simp [views]) (C39_profile_details_inquiry m) (by simp)) ?_)⟩
    rw [f1, ok_bind, f2]; rfl
  | profileDetailsReply p t data =>
    obtain ⟨h1, h2, h3, h4⟩ := hx
    obtain ⟨m, e, h, f1, f2, -, f3⟩ := C40_profile_details_reply src dst p t data dev hs hd h1 h2 h3 h4 hdev
    refine ⟨m, e, fin h (reading_ok (said_view h ⟨"profile_details_reply_view", ProfileDetailsReplyView.validate, [0x29]⟩ (by simp [views]) (C39_profile_details_reply m) (by simp)) ?_)⟩
    rw [f1, ok_bind, f2, ok_bind, f3]; rfl
  | profileSpecificData p data =>
    obtain ⟨h1, h2, h3⟩ := hx
    obtain ⟨m, e, h, f1, -, f2⟩ := C43_profile_specific_data src dst p data dev hs hd h1 h2 h3 hdev
    refine ⟨m, e, fin h (reading_ok (said_view h ⟨"profile_specific_data_view", ProfileSpecificDataView.validate, [0x2F]⟩ (by simp [views]) (C39_profile_specific_data m) (by simp)) ?_)⟩
    rw [f1, ok_bind, f2]; rfl
  | propertyCapabilitiesInquiry n =>
    obtain ⟨m, e, h, f1, -⟩ := C40_property_exchange_capabilities_inquiry src dst n dev hs hd hx hdev
    refine ⟨m, e, fin h (reading_ok (said_view h ⟨"property_exchange_capabilities_view", PropertyExchangeCapabilitiesView.validate, [0x30, 0x31]⟩ (by simp [views]) (C39_property_exchange_capabilities m) (by simp)) ?_)⟩
    rw [f1]; rfl
  | propertyCapabilitiesReply n =>
    obtain ⟨m, e, h, f1, -⟩ := C40_property_exchange_capabilities_reply src dst n dev hs hd hx hdev
    refine ⟨m, e, fin h (reading_ok (said_view h ⟨"property_exchange_capabilities_view", PropertyExchangeCapabilitiesView.validate, [0x30, 0x31]⟩ (by simp [views]) (C39_property_exchange_capabilities m) (by simp)) ?_)⟩
    rw [f1]; rfl
  | property k r hdr n t c =>
    obtain ⟨h1, h2, h3, h4⟩ := hx
    obtain ⟨m, e, h, f1, -, f2, f3, f4, -, f5⟩ := C42_property_data k.subtype src dst (viewOf hdr) n t (viewOf c) r dev
      (by cases k <;> decide) hs hd h1 hdev h2 h3 (by rw [viewOf_bytes]; exact h4)
    rw [viewOf_bytes] at f2 f5
    have hr : readProperty k m = .ok (some (.property k r hdr n t c)) := by
      refine reading_ok (said_view h ⟨"property_data_message_view", PropertyDataView.validate, [0x34, 0x35, 0x36, 0x37, 0x38, 0x39, 0x3F]⟩
        (by simp [views]) (C39_property_data m) (by simp)) ?_
      rw [f1, ok_bind, f2, ok_bind, f3, ok_bind, f4, ok_bind, f5]; rfl
    refine ⟨m, e, fin h ?_⟩
    rw [← hr]
    cases k <;> rfl
  | processCapabilitiesInquiry =>
    obtain ⟨m, e, h⟩ := C40_process_inquiry_capabilities_inquiry src dst dev hs hd hdev
    exact ⟨m, e, fin h rfl⟩
  | processCapabilitiesReply f =>
    obtain ⟨m, e, h, f1⟩ := C40_process_inquiry_capabilities_reply src dst f dev hs hd hx hdev
    refine ⟨m, e, fin h (reading_ok (said_view h ⟨"process_inquiry_capabilities_reply_view", ProcessInquiryCapabilitiesReplyView.validate, [0x41]⟩ (by simp [views]) (C39_process_inquiry_capabilities_reply m) (by simp)) ?_)⟩
    rw [f1]; rfl
  | reportInquiry a b c d =>
    obtain ⟨h1, h2, h3, h4⟩ := hx
    obtain ⟨m, e, h, f1, f2, f3, f4⟩ := C40_midi_message_report_inquiry src dst a b c d dev hs hd h1 h2 h3 h4 hdev
    refine ⟨m, e, fin h (reading_ok (said_view h ⟨"midi_message_report_inquiry_view", MidiMessageReportInquiryView.validate, [0x42]⟩ (by simp [views]) (C39_midi_message_report_inquiry m) (by simp)) ?_)⟩
    rw [f1, ok_bind, f2, ok_bind, f3, ok_bind, f4]; rfl
  | reportReply b c d =>
    obtain ⟨rfl, h2, h3, h4⟩ := hx
    obtain ⟨m, e, h, f1, f2, f3⟩ := C40_midi_message_report_reply src b c d dev hs h2 h3 h4 hdev
    refine ⟨m, e, fin h (reading_ok (said_view h ⟨"midi_message_report_reply_view", MidiMessageReportReplyView.validate, [0x43]⟩ (by simp [views]) (C39_midi_message_report_reply m) (by simp)) ?_)⟩
    rw [f1, ok_bind, f2, ok_bind, f3]; rfl
  | reportEnd =>
    obtain rfl := hx
    obtain ⟨m, e, h⟩ := C40_midi_message_report_end src dev hs hdev
    exact ⟨m, e, fin h rfl⟩

/-! ## C106 -/

/-- C106: whatever is said with a factory function, with arguments in range, succeeds, and the message is understood as exactly that. -/
theorem C106_understood (x : Said) (hx : x.Ok) : ∃ m, x.say = .ok m ∧ m.isValid = true ∧ understand m = .ok (some x) := by
  obtain ⟨m, h1, -, h2, -, h3⟩ := said_ok x hx
  exact ⟨m, h1, h2, h3⟩

/-- C106: no two different things are said with the same message. -/
theorem C106_told_apart (x y : Said) (hx : x.Ok) (hy : y.Ok) (h : x.say = y.say) : x = y := by
  obtain ⟨m, h1, -, h2⟩ := C106_understood x hx
  obtain ⟨n, h3, -, h4⟩ := C106_understood y hy
  rw [h1, h3] at h
  obtain rfl := Except.ok.inj h
  rw [h2] at h4
  exact Option.some.inj (Except.ok.inj h4)

theorem readContent_noFault (st : Nat) (m : Sysex) (h4 : 4 ≤ m.data.length) (hv : NoFault (CI.View.messageVersion m)) :
    NoFault (readContent st m) := by
  have hp : ∀ k, NoFault (readProperty k m) := fun k =>
    reading_noFault (C39_property_data m) fun ⟨_, _, h1, _, h3, h4, h5, _, h7⟩ =>
      NoFault.bind h1 fun _ _ => NoFault.bind h3 fun _ _ => NoFault.bind h4 fun _ _ => NoFault.bind h5 fun _ _ =>
        NoFault.bind h7 fun _ _ => NoFault.ok _
  unfold readContent
  split
  · refine reading_noFault (C39_discovery_inquiry_partial m (.inl h4)) fun ⟨_, hv, h1, h2, h3, h5⟩ => NoFault.bind hv fun _ _ => ?_
    split
    · exact NoFault.bind h1 fun _ _ => NoFault.bind h2 fun _ _ => NoFault.bind h3 fun _ _ => NoFault.ok _
    · exact NoFault.bind h1 fun _ _ => NoFault.bind h2 fun _ _ => NoFault.bind h3 fun _ _ => NoFault.bind h5 fun _ _ => NoFault.ok _
  · refine reading_noFault (C39_discovery_reply_partial m (.inl h4)) fun ⟨_, hv, h1, h2, h3, h5, h6⟩ => NoFault.bind hv fun _ _ => ?_
    split
    · exact NoFault.bind h1 fun _ _ => NoFault.bind h2 fun _ _ => NoFault.bind h3 fun _ _ => NoFault.ok _
    · exact NoFault.bind h1 fun _ _ => NoFault.bind h2 fun _ _ => NoFault.bind h3 fun _ _ => NoFault.bind h5 fun _ _ =>
        NoFault.bind h6 fun _ _ => NoFault.ok _
  · exact reading_noFault (C39_endpoint_information_inquiry m) fun ⟨_, _, h1⟩ => NoFault.bind h1 fun _ _ => NoFault.ok _
  · exact reading_noFault (C39_endpoint_information_reply m) fun ⟨_, _, h1, _, h2⟩ =>
      NoFault.bind h1 fun _ _ => NoFault.bind h2 fun _ _ => NoFault.ok _
  · exact reading_noFault (C39_ack m) fun ⟨_, _, h1, h2, h3, h5, _, h6⟩ =>
      NoFault.bind h1 fun _ _ => NoFault.bind h2 fun _ _ => NoFault.bind h3 fun _ _ => NoFault.bind h5 fun _ _ =>
        NoFault.bind h6 fun _ _ => NoFault.ok _
  · exact reading_noFault (C39_invalidate_muid m) fun ⟨_, _, h1⟩ => NoFault.bind h1 fun _ _ => NoFault.ok _
  · refine NoFault.bind hv fun _ _ => ?_
    split
    · exact NoFault.ok _
    · exact reading_noFault (C39_nak m) fun ⟨_, _, h1, h2, h3, h5, _, h6⟩ =>
        NoFault.bind h1 fun _ _ => NoFault.bind h2 fun _ _ => NoFault.bind h3 fun _ _ => NoFault.bind h5 fun _ _ =>
          NoFault.bind h6 fun _ _ => NoFault.ok _
  · exact reading_noFault (C39_profile_inquiry m) fun _ => NoFault.ok _
  · exact reading_noFault (C39_profile_inquiry_reply m) fun ⟨_, _, _, _, _, _, h1, h2⟩ =>
      NoFault.bind h1 fun _ _ => NoFault.bind h2 fun _ _ => NoFault.ok _
  · exact reading_noFault (C39_profile_destination m) fun ⟨_, _, h1, h2, _⟩ =>
      NoFault.bind h1 fun _ _ => NoFault.bind h2 fun _ _ => NoFault.ok _
  · exact reading_noFault (C39_profile_id m) fun ⟨_, _, h1⟩ => NoFault.bind h1 fun _ _ => NoFault.ok _
  · exact reading_noFault (C39_profile_destination m) fun ⟨_, _, h1, h2, _⟩ =>
      NoFault.bind h1 fun _ _ => NoFault.bind h2 fun _ _ => NoFault.ok _
  · exact reading_noFault (C39_profile_destination m) fun ⟨_, _, h1, h2, _⟩ =>
      NoFault.bind h1 fun _ _ => NoFault.bind h2 fun _ _ => NoFault.ok _
  · exact reading_noFault (C39_profile_id m) fun ⟨_, _, h1⟩ => NoFault.bind h1 fun _ _ => NoFault.ok _
  · exact reading_noFault (C39_profile_id m) fun ⟨_, _, h1⟩ => NoFault.bind h1 fun _ _ => NoFault.ok _
  · exact reading_noFault (C39_profile_details_inquiry m) fun ⟨_, _, h1, h2⟩ =>
      NoFault.bind h1 fun _ _ => NoFault.bind h2 fun _ _ => NoFault.ok _
  · exact reading_noFault (C39_profile_details_reply m) fun ⟨_, _, h1, h2, _, h3⟩ =>
      NoFault.bind h1 fun _ _ => NoFault.bind h2 fun _ _ => NoFault.bind h3 fun _ _ => NoFault.ok _
  · exact reading_noFault (C39_profile_specific_data m) fun ⟨_, _, h1, _, h2⟩ =>
      NoFault.bind h1 fun _ _ => NoFault.bind h2 fun _ _ => NoFault.ok _
  · exact reading_noFault (C39_property_exchange_capabilities m) fun ⟨_, _, h1, _⟩ => NoFault.bind h1 fun _ _ => NoFault.ok _
  · exact reading_noFault (C39_property_exchange_capabilities m) fun ⟨_, _, h1, _⟩ => NoFault.bind h1 fun _ _ => NoFault.ok _
  · exact hp _
  · exact hp _
  · exact hp _
  · exact hp _
  · exact hp _
  · exact hp _
  · exact hp _
  · exact NoFault.ok _
  · exact reading_noFault (C39_process_inquiry_capabilities_reply m) fun ⟨_, _, h1⟩ => NoFault.bind h1 fun _ _ => NoFault.ok _
  · exact reading_noFault (C39_midi_message_report_inquiry m) fun ⟨_, _, h1, h2, h3, h5⟩ =>
      NoFault.bind h1 fun _ _ => NoFault.bind h2 fun _ _ => NoFault.bind h3 fun _ _ => NoFault.bind h5 fun _ _ => NoFault.ok _
  · exact reading_noFault (C39_midi_message_report_reply m) fun ⟨_, _, h1, h2, h3⟩ =>
      NoFault.bind h1 fun _ _ => NoFault.bind h2 fun _ _ => NoFault.bind h3 fun _ _ => NoFault.ok _
  · exact NoFault.ok _
  · exact NoFault.ok _

/-- C106: whatever sysex message arrives, finding out what it says reads no byte outside of it. -/
theorem C106_safe (m : Sysex) : ∃ r, understand m = .ok r := by
  obtain ⟨b, h1, h2, h3⟩ := C39_capability_inquiry m
  show NoFault (understand m)
  unfold understand
  rw [h2, ok_bind]
  cases b with
  | false => exact NoFault.ok _
  | true =>
    obtain ⟨a1, -, a3, a4, a5, a6, -⟩ := h3 rfl
    have hl : 4 ≤ m.data.length := by
      simp only [View.validate, andThen_true, isNonRealtime_true, sizeAtLeast_true] at h1
      omega
    rw [if_pos rfl]
    refine NoFault.bind a3 fun st _ => NoFault.bind (readContent_noFault _ m hl a4) fun c _ => ?_
    cases c with
    | none => exact NoFault.ok _
    | some c => exact NoFault.bind a5 fun _ _ => NoFault.bind a6 fun _ _ => NoFault.bind a1 fun _ _ => NoFault.ok _

theorem said_sendable (x : Said) (hx : x.Ok) (g : Byte) (hg : g < 16) :
    ∃ m, x.say = .ok m ∧ Sendable7 (m, g) ∧ understand m = .ok (some x) := by
  obtain ⟨m, h1, hid, h7, -, h3⟩ := said_ok x hx
  refine ⟨m, h1, ⟨?_, ?_, hg⟩, h3⟩
  · rw [show (m, g).1.manufacturerID = _ from hid]; decide
  · intro b hb
    rw [BitVec.lt_def]
    exact ((C53_is_valid m).1 h7).2.2.2.2 b hb

theorem said_all : ∀ xs : List (Said × Byte), (∀ x ∈ xs, x.1.Ok ∧ x.2 < 16) →
    ∃ ms : List (Sysex × Byte), (∀ m ∈ ms, Sendable7 m) ∧
      xs.mapM (fun x => x.1.packets x.2) = ms.mapM (fun m => sendSysex7 m.1 m.2) ∧
      (ms.map Prod.fst).mapM understand = .ok (xs.map fun x => some x.1)
  | [], _ => ⟨[], by simp, rfl, rfl⟩
  | x :: xs, h => by
    obtain ⟨ms, h1, h2, h3⟩ := said_all xs fun y hy => h y (List.mem_cons_of_mem _ hy)
    obtain ⟨m, e1, e2, e3⟩ := said_sendable x.1 (h x (by simp)).1 x.2 (h x (by simp)).2
    refine ⟨(m, x.2) :: ms, ?_, ?_, ?_⟩
    · intro y hy
      rcases List.mem_cons.1 hy with rfl | hy
      · exact e2
      · exact h1 y hy
    · rw [List.mapM_cons, List.mapM_cons, h2]
      unfold Said.packets
      rw [e1, ok_bind]
    · rw [List.map_cons, List.mapM_cons, h3, e3]; rfl

/-- C106: a conversation of any length, in any groups, is understood word for word at the other end: the messages are sent in packets,
other packets may arrive between them, and the collector may have received anything before. -/
theorem C106_over_packets (hist : List Packet) (xs : List (Said × Byte)) (hxs : ∀ x ∈ xs, x.1.Ok ∧ x.2 < 16) :
    ∃ sent, xs.mapM (fun x => x.1.packets x.2) = .ok sent ∧
      sent.flatten.filter (fun p => decide (IsSysex7 p)) = sent.flatten ∧
      ∀ qs : List Packet, qs.filter (fun p => decide (IsSysex7 p)) = sent.flatten →
        ∃ c before c' got, ({} : Collector7).feedAll hist = .ok (c, before) ∧ c.feedAll qs = .ok (c', got) ∧
          got.mapM understand = .ok (xs.map fun x => some x.1) := by
  obtain ⟨ms, h1, h2, h3⟩ := said_all xs hxs
  obtain ⟨sent, e1, e2⟩ := C18_send_succeeds ms h1
  refine ⟨sent, h2.trans e1, e2, fun qs hq => ?_⟩
  obtain ⟨c, before, c', a1, a2⟩ := C18_sysex7_round_trip hist ms h1 sent e1 qs hq
  exact ⟨c, before, c', _, a1, a2, h3⟩

/-- C106: the same over a MIDI 1 cable, with a byte stream parser with sysex callback, whatever it has received before. -/
theorem C106_over_cable (xs : List (Said × Byte)) (hxs : ∀ x ∈ xs, x.1.Ok ∧ x.2 < 16) : ∀ (p : Parser), Reached p →
    p.hasSysexCallback = true → p.invokeCallbacks = true →
    ∃ bss p' es, xs.mapM (fun x => x.1.bytes x.2) = .ok bss ∧ p.feedAll bss.flatten = .ok (p', es) ∧
      understandEvents es = .ok (xs.map fun x => some x.1) ∧ es.length = xs.length := by
  induction xs with
  | nil => exact fun p _ _ _ => ⟨[], p, [], rfl, rfl, rfl, rfl⟩
  | cons x xs ih =>
    intro p hp hcb hon
    obtain ⟨m, e1, e2, e3⟩ := said_sendable x.1 (hxs x (by simp)).1 x.2 (hxs x (by simp)).2
    obtain ⟨ps, bss, d, a1, a2, -, a4⟩ := C35_chain_callback m x.2 e2 p hp hcb hon
    have hset : d.hasSysexCallback = p.hasSysexCallback ∧ d.invokeCallbacks = p.invokeCallbacks := by
      obtain ⟨st, r, hg⟩ := reached_rel hp
      obtain ⟨d', e, r'⟩ := feedAll_rel bss.flatten r
      rw [a4] at e
      obtain rfl := (Prod.mk.inj (Except.ok.inj e)).1
      exact ⟨r'.cb, r'.on⟩
    obtain ⟨bs, p', es, b1, b2, b3, b4⟩ := ih (fun y hy => hxs y (List.mem_cons_of_mem _ hy)) d (hp.feedAll a4) (hset.1.trans hcb)
      (hset.2.trans hon)
    have hb : x.1.bytes x.2 = .ok bss.flatten := by
      unfold Said.bytes Said.packets
      rw [e1, ok_bind, a1, ok_bind, a2]; rfl
    refine ⟨bss.flatten :: bs, p', .sysex m :: es, ?_, ?_, ?_, by simp [b4]⟩
    · rw [List.mapM_cons, hb, ok_bind, b1]; rfl
    · rw [List.flatten_cons, feedAll_append, a4]
      show (d.feedAll _).map _ = _
      rw [b2]; rfl
    · unfold understandEvents at b3 ⊢
      rw [List.filterMap_cons]
      dsimp only
      rw [List.mapM_cons, e3, ok_bind, b3]; rfl

/-- C106: what is not said: the number of channels of the destination of a request to turn a profile off is not in the message, whatever
it is. -/
theorem C106_off_number (source dest : Word) (p : ProfileId) (d : ProfileDestination) (hs : U28 source) (hd : U28 dest) (hp : Seven p.bytes)
    (hdev : U7 d.scope) : ∃ m, makeProfileOff source dest p d = .ok m ∧ understand m = .ok (some ⟨source, dest, d.scope, .profileOff p⟩) := by
  obtain ⟨m, h1, -, h2⟩ := C106_understood ⟨source, dest, d.scope, .profileOff p⟩ ⟨hs, hd, hdev, hp⟩
  exact ⟨m, h1, h2⟩

/-! Things that can be said. -/

example : (⟨0x1234567, 0x0FFFFFFF, 0x7F, .discoveryInquiry ⟨0x7D0000, 1, 2, 3⟩ 0x0E 512 0⟩ : Said).Ok := by unfold Said.Ok; simp; decide
example : (⟨0x1234567, 0x0765432, 0x7F, .nakV1⟩ : Said).Ok := ⟨by decide, by decide, by decide, trivial⟩
example : (⟨0x1234567, 0x0765432, 5, .profileOn ⟨0x7E, 1, 2, 3, 4⟩ 4⟩ : Said).Ok := by unfold Said.Ok; simp; decide
example : (⟨0x1234567, 0x0765432, 0x7F, .profileInquiryReply [⟨0x7E, 1, 2, 3, 4⟩] [⟨0x7E, 1, 2, 3, 5⟩, ⟨0x7E, 1, 2, 3, 6⟩]⟩ : Said).Ok := by
  unfold Said.Ok; simp; decide
example : (⟨0x1234567, 0x0765432, 0x7F, .property .getReply 7 [0x7B, 0x7D] 2 1 [1, 2, 3]⟩ : Said).Ok := by unfold Said.Ok; simp; decide

end Midi
