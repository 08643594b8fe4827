import Verif.Model.CapabilityInquiry

/-!
# MIDI-CI messages: what the standard says about the bytes, and the list of views
-/

namespace Midi.Spec
open CI

/-- The `n` digits of `v` to the base 128, least significant first: how MIDI-CI messages contain numbers. -/
def le7 : (n v : Nat) → List Byte
  | 0, _ => []
  | n + 1, v => BitVec.ofNat 8 (v % 128) :: le7 n (v / 128)

/-- The first twelve bytes of the data of every MIDI-CI message. -/
def ciHeader (version subtype deviceId : Byte) (source dest : Word) : List Byte :=
  [deviceId, 0x0D, subtype, version] ++ le7 4 source.toNat ++ le7 4 dest.toNat

/-- The message is valid 7 bit sysex, it is a MIDI-CI message, and view and message return the arguments common to all
MIDI-CI messages. -/
def CarriesHeader (m : Sysex) (version subtype deviceId : Byte) (source dest : Word) : Prop :=
  m.isValid = true ∧ CI.View.validate m = .ok true ∧
  UniversalSysex.View.type m = .ok 0x7E0D ∧ UniversalSysex.View.deviceId m = .ok deviceId ∧
  UniversalSysex.View.subtype m = .ok subtype ∧ CI.View.messageVersion m = .ok version ∧
  CI.View.sourceMuid m = .ok source ∧ CI.View.destinationMuid m = .ok dest ∧
  UniversalSysex.Message.type m = .ok 0x7E0D ∧ UniversalSysex.Message.deviceId m = .ok deviceId ∧
  UniversalSysex.Message.subtype m = .ok subtype ∧ CI.Message.messageVersion m = .ok version ∧
  CI.Message.sourceMuid m = .ok source ∧ CI.Message.destinationMuid m = .ok dest

/-- A view class: its name, its `validate` function, and the subtypes of the messages it is for. -/
structure ViewClass where
  name : String
  validate : Sysex → Except Fault Bool
  subtypes : List Byte

/-- All view classes with a `validate` function of their own. -/
def views : List ViewClass :=
  [⟨"discovery_inquiry_view", DiscoveryInquiryView.validate, [0x70]⟩,
   ⟨"discovery_reply_view", DiscoveryReplyView.validate, [0x71]⟩,
   ⟨"endpoint_information_inquiry_view", EndpointInformationInquiryView.validate, [0x72]⟩,
   ⟨"endpoint_information_reply_view", EndpointInformationReplyView.validate, [0x73]⟩,
   ⟨"ack_view", AckView.validate, [0x7D]⟩,
   ⟨"invalidate_muid_view", InvalidateMuidView.validate, [0x7E]⟩,
   ⟨"nak_view", NakView.validate, [0x7F]⟩,
   ⟨"profile_inquiry_view", ProfileInquiryView.validate, [0x20]⟩,
   ⟨"profile_inquiry_reply_view", ProfileInquiryReplyView.validate, [0x21]⟩,
   ⟨"profile_id_view", ProfileIdView.validate, [0x22, 0x23, 0x24, 0x25, 0x26, 0x27]⟩,
   ⟨"profile_destination_view", ProfileDestinationView.validate, [0x22, 0x23, 0x24, 0x25]⟩,
   ⟨"profile_details_inquiry_view", ProfileDetailsInquiryView.validate, [0x28]⟩,
   ⟨"profile_details_reply_view", ProfileDetailsReplyView.validate, [0x29]⟩,
   ⟨"profile_specific_data_view", ProfileSpecificDataView.validate, [0x2F]⟩,
   ⟨"property_exchange_capabilities_view", PropertyExchangeCapabilitiesView.validate, [0x30, 0x31]⟩,
   ⟨"property_data_message_view", PropertyDataView.validate, [0x34, 0x35, 0x36, 0x37, 0x38, 0x39, 0x3F]⟩,
   ⟨"get_property_data_view", GetPropertyDataView.validate, [0x34, 0x35]⟩,
   ⟨"set_property_data_view", SetPropertyDataView.validate, [0x36, 0x37]⟩,
   ⟨"subscription_view", SubscriptionView.validate, [0x38, 0x39]⟩,
   ⟨"notify_view", NotifyView.validate, [0x3F]⟩,
   ⟨"process_inquiry_capabilities_reply_view", ProcessInquiryCapabilitiesReplyView.validate, [0x41]⟩,
   ⟨"midi_message_report_inquiry_view", MidiMessageReportInquiryView.validate, [0x42]⟩,
   ⟨"midi_message_report_reply_view", MidiMessageReportReplyView.validate, [0x43]⟩]

/-- The names of those of the given views whose `validate` accepts the message. -/
def accepting (m : Sysex) : List ViewClass → Except Fault (List String)
  | [] => .ok []
  | v :: vs => do
    let b ← v.validate m
    let r ← accepting m vs
    return if b then v.name :: r else r

/-- The names of all views that accept the message. -/
def acceptedBy (m : Sysex) : Except Fault (List String) := accepting m views

end Midi.Spec
