import Verif.Props.PropertyExchange
import Verif.Model.ByteStream

/-!
# Everything that can be said in MIDI-CI

What an application can say with the factory functions, as data; `Said.say` says it with the library, and `understand` is what an
application on the other side does to find out what was said, with the library's views only. One constructor for every factory
function (the property exchange messages are those of `make_property_data_message`, which all others call).
-/

namespace Midi.Spec
open CI

/-- The kinds of property exchange messages. -/
inductive PropertyKind where
  | getInquiry | getReply | setInquiry | setReply | subscriptionInquiry | subscriptionReply | notify
deriving DecidableEq, Repr

/-- The subtype of a property exchange message. -/
def PropertyKind.subtype : PropertyKind → Byte
  | getInquiry => 0x34
  | getReply => 0x35
  | setInquiry => 0x36
  | setReply => 0x37
  | subscriptionInquiry => 0x38
  | subscriptionReply => 0x39
  | notify => 0x3F

/-- The contents of a message. -/
inductive Content where
  | discoveryInquiryV1 (identity : DeviceIdentity) (categories : Byte) (maxSize : Word)
  | discoveryInquiry (identity : DeviceIdentity) (categories : Byte) (maxSize : Word) (outputPath : Byte)
  | discoveryReplyV1 (identity : DeviceIdentity) (categories : Byte) (maxSize : Word)
  | discoveryReply (identity : DeviceIdentity) (categories : Byte) (maxSize : Word) (outputPath functionBlock : Byte)
  | endpointInquiry (status : Byte)
  | endpointReply (status : Byte) (data : List Byte)
  | ack (transaction statusCode statusData : Byte) (details : Details) (text : List Byte)
  | nakV1
  | nak (transaction statusCode statusData : Byte) (details : Details) (text : List Byte)
  | invalidateMuid (target : Word)
  | profileInquiry
  | profileInquiryReply (enabled disabled : List ProfileId)
  | profileOn (profile : ProfileId) (numChannels : U16)
  | profileOff (profile : ProfileId)
  | profileEnabled (profile : ProfileId) (numChannels : U16)
  | profileDisabled (profile : ProfileId) (numChannels : U16)
  | profileAdded (profile : ProfileId)
  | profileRemoved (profile : ProfileId)
  | profileDetailsInquiry (profile : ProfileId) (target : Byte)
  | profileDetailsReply (profile : ProfileId) (target : Byte) (data : List Byte)
  | profileSpecificData (profile : ProfileId) (data : List Byte)
  | propertyCapabilitiesInquiry (maxRequests : Byte)
  | propertyCapabilitiesReply (maxRequests : Byte)
  | property (kind : PropertyKind) (requestId : Byte) (header : List Byte) (numChunks thisChunk : U16) (chunk : List Byte)
  | processCapabilitiesInquiry
  | processCapabilitiesReply (features : Byte)
  | reportInquiry (control system channel note : Byte)
  | reportReply (system channel note : Byte)
  | reportEnd
deriving DecidableEq, Repr

/-- A message: who says it to whom, about which part of the device, and what. -/
structure Said where
  source : Word
  dest : Word
  deviceId : Byte
  content : Content
deriving DecidableEq, Repr

/-- A header or chunk for `make_property_data_message`: a null pointer if there is none. -/
def viewOf (l : List Byte) : DataView := if l = [] then {} else ⟨false, l⟩

/-- Saying it with the factory functions. The destination of discovery inquiries, of invalidate MUID messages, and of message report
replies and ends is not an argument: it is broadcast. The device id is not an argument of the discovery, endpoint information and
invalidate MUID messages (function block, 7F), and it is the scope of the profile destination when a profile is turned on or off. -/
def Said.say (x : Said) : Except Fault Sysex :=
  match x.content with
  | .discoveryInquiryV1 i c m => makeDiscoveryInquiryV1 x.source i c m
  | .discoveryInquiry i c m o => makeDiscoveryInquiry x.source i c m o
  | .discoveryReplyV1 i c m => makeDiscoveryReplyV1 x.source x.dest i c m
  | .discoveryReply i c m o f => makeDiscoveryReply x.source x.dest i c m o f
  | .endpointInquiry status => makeEndpointInformationInquiry x.source x.dest status
  | .endpointReply status data => makeEndpointInformationReply x.source x.dest status data
  | .ack t c d details text => makeAck x.source x.dest x.deviceId t c d details text
  | .nakV1 => makeNakV1 x.source x.dest x.deviceId
  | .nak t c d details text => makeNak x.source x.dest x.deviceId t c d details text
  | .invalidateMuid target => makeInvalidateMuid x.source target
  | .profileInquiry => makeProfileInquiry x.source x.dest x.deviceId
  | .profileInquiryReply e d => makeProfileInquiryReply x.source x.dest e d x.deviceId
  | .profileOn p n => makeProfileOn x.source x.dest p ⟨x.deviceId, n⟩
  | .profileOff p => makeProfileOff x.source x.dest p ⟨x.deviceId, 0⟩
  | .profileEnabled p n => makeProfileEnabled x.source x.dest p ⟨x.deviceId, n⟩
  | .profileDisabled p n => makeProfileDisabled x.source x.dest p ⟨x.deviceId, n⟩
  | .profileAdded p => makeProfileAdded x.source x.dest p x.deviceId
  | .profileRemoved p => makeProfileRemoved x.source x.dest p x.deviceId
  | .profileDetailsInquiry p target => makeProfileDetailsInquiry x.source x.dest p target x.deviceId
  | .profileDetailsReply p target data => makeProfileDetailsReply x.source x.dest p target data x.deviceId
  | .profileSpecificData p data => makeProfileSpecificData x.source x.dest p data x.deviceId
  | .propertyCapabilitiesInquiry n => makePeCapabilitiesInquiry x.source x.dest n x.deviceId
  | .propertyCapabilitiesReply n => makePeCapabilitiesReply x.source x.dest n x.deviceId
  | .property k r h n t c => makePropertyData k.subtype x.source x.dest (viewOf h) n t (viewOf c) r x.deviceId
  | .processCapabilitiesInquiry => makeProcessInquiryCapabilitiesInquiry x.source x.dest x.deviceId
  | .processCapabilitiesReply f => makeProcessInquiryCapabilitiesReply x.source x.dest f x.deviceId
  | .reportInquiry a b c d => makeMidiMessageReportInquiry x.source x.dest a b c d x.deviceId
  | .reportReply b c d => makeMidiMessageReportReply x.source b c d x.deviceId
  | .reportEnd => makeMidiMessageReportEnd x.source x.deviceId

/-- The arguments are ones the factory functions are made for: every number fits into its field, data is 7 bit and its length fits into
its length field, and what is not an argument has the value the factory function writes. -/
def Said.Ok (x : Said) : Prop :=
  U28 x.source ∧ U28 x.dest ∧ U7 x.deviceId ∧
  match x.content with
  | .discoveryInquiryV1 i c m => x.dest = 0x0FFFFFFF ∧ x.deviceId = 0x7F ∧ ValidIdentity i ∧ U7 c ∧ U28 m
  | .discoveryInquiry i c m o => x.dest = 0x0FFFFFFF ∧ x.deviceId = 0x7F ∧ ValidIdentity i ∧ U7 c ∧ U28 m ∧ U7 o
  | .discoveryReplyV1 i c m => x.deviceId = 0x7F ∧ ValidIdentity i ∧ U7 c ∧ U28 m
  | .discoveryReply i c m o f => x.deviceId = 0x7F ∧ ValidIdentity i ∧ U7 c ∧ U28 m ∧ U7 o ∧ U7 f
  | .endpointInquiry status => x.deviceId = 0x7F ∧ U7 status
  | .endpointReply status data => x.deviceId = 0x7F ∧ U7 status ∧ Seven data ∧ data.length < 2 ^ 14
  | .ack t c d details text => U7 t ∧ U7 c ∧ U7 d ∧ Seven details.bytes ∧ Seven text ∧ text.length < 2 ^ 14
  | .nakV1 => True
  | .nak t c d details text => U7 t ∧ U7 c ∧ U7 d ∧ Seven details.bytes ∧ Seven text ∧ text.length < 2 ^ 14
  | .invalidateMuid target => x.dest = 0x0FFFFFFF ∧ x.deviceId = 0x7F ∧ U28 target
  | .profileInquiry => True
  | .profileInquiryReply e d => e.length ≤ 16383 ∧ d.length ≤ 16383 ∧ (∀ p ∈ e, Seven p.bytes) ∧ ∀ p ∈ d, Seven p.bytes
  | .profileOn p n | .profileEnabled p n | .profileDisabled p n => Seven p.bytes ∧ U14 n
  | .profileOff p | .profileAdded p | .profileRemoved p => Seven p.bytes
  | .profileDetailsInquiry p target => Seven p.bytes ∧ U7 target
  | .profileDetailsReply p target data => Seven p.bytes ∧ U7 target ∧ Seven data ∧ data.length < 2 ^ 14
  | .profileSpecificData p data => Seven p.bytes ∧ Seven data ∧ data.length < 2 ^ 28
  | .propertyCapabilitiesInquiry n | .propertyCapabilitiesReply n => U7 n
  | .property _ r h n t c => U7 r ∧ HeaderOk (viewOf h) ∧ ChunkOk n t (viewOf c) ∧ (h = [] ∨ t.toNat ≤ 1)
  | .processCapabilitiesInquiry => True
  | .processCapabilitiesReply f => U7 f
  | .reportInquiry a b c d => U7 a ∧ U7 b ∧ U7 c ∧ U7 d
  | .reportReply b c d => x.dest = 0x0FFFFFFF ∧ U7 b ∧ U7 c ∧ U7 d
  | .reportEnd => x.dest = 0x0FFFFFFF

/-- Reading with a view, if the message has it. -/
def reading (validate : Sysex → Except Fault Bool) (m : Sysex) (read : Sysex → Except Fault Content) :
    Except Fault (Option Content) := do
  match ← asView validate m with
  | some v => return some (← read v)
  | none => return none

/-- The five bytes of details. -/
def detailsOf (l : List Byte) : Details := ⟨l.getD 0 0, l.getD 1 0, l.getD 2 0, l.getD 3 0, l.getD 4 0⟩

/-- A property exchange message, read with `property_data_message_view`. -/
def readProperty (kind : PropertyKind) (m : Sysex) : Except Fault (Option Content) :=
  reading PropertyDataView.validate m fun v => do
    return .property kind (← PropertyDataView.requestId v) (← PropertyDataView.header v) (← PropertyDataView.numberOfChunks v)
      (← PropertyDataView.numberOfThisChunk v) (← PropertyDataView.chunk v)

/-- What a message with this subtype says. -/
def readContent (subtype : Nat) (m : Sysex) : Except Fault (Option Content) :=
  match subtype with
  | 0x70 => reading DiscoveryInquiryView.validate m fun v => do
    if (← View.messageVersion v) < 2 then
      return .discoveryInquiryV1 (← Discovery.identity v) (← Discovery.categories v) (← Discovery.maximumMessageSize v)
    else
      return .discoveryInquiry (← Discovery.identity v) (← Discovery.categories v) (← Discovery.maximumMessageSize v)
        (← Discovery.outputPathId v)
  | 0x71 => reading DiscoveryReplyView.validate m fun v => do
    if (← View.messageVersion v) < 2 then
      return .discoveryReplyV1 (← Discovery.identity v) (← Discovery.categories v) (← Discovery.maximumMessageSize v)
    else
      return .discoveryReply (← Discovery.identity v) (← Discovery.categories v) (← Discovery.maximumMessageSize v)
        (← Discovery.outputPathId v) (← DiscoveryReplyView.functionBlock v)
  | 0x72 => reading EndpointInformationInquiryView.validate m fun v => do
    return .endpointInquiry (← EndpointInformationInquiryView.status v)
  | 0x73 => reading EndpointInformationReplyView.validate m fun v => do
    return .endpointReply (← EndpointInformationReplyView.status v) (← EndpointInformationReplyView.data v)
  | 0x7D => reading AckView.validate m fun v => do
    return .ack (← Nack.transaction v) (← Nack.statusCode v) (← Nack.statusData v) (detailsOf (← Nack.details v)) (← Nack.message v)
  | 0x7E => reading InvalidateMuidView.validate m fun v => do return .invalidateMuid (← InvalidateMuidView.targetMuid v)
  | 0x7F => do
    if (← View.messageVersion m) < 2 then return some .nakV1
    else reading NakView.validate m fun v => do
      return .nak (← Nack.transaction v) (← Nack.statusCode v) (← Nack.statusData v) (detailsOf (← Nack.details v)) (← Nack.message v)
  | 0x20 => reading ProfileInquiryView.validate m fun _ => return .profileInquiry
  | 0x21 => reading ProfileInquiryReplyView.validate m fun v => do
    return .profileInquiryReply (← ProfileInquiryReplyView.enabled v) (← ProfileInquiryReplyView.disabled v)
  | 0x22 => reading ProfileDestinationView.validate m fun v => do
    return .profileOn (← ProfileIdView.profile v) (← ProfileDestinationView.numChannels v)
  | 0x23 => reading ProfileIdView.validate m fun v => do return .profileOff (← ProfileIdView.profile v)
  | 0x24 => reading ProfileDestinationView.validate m fun v => do
    return .profileEnabled (← ProfileIdView.profile v) (← ProfileDestinationView.numChannels v)
  | 0x25 => reading ProfileDestinationView.validate m fun v => do
    return .profileDisabled (← ProfileIdView.profile v) (← ProfileDestinationView.numChannels v)
  | 0x26 => reading ProfileIdView.validate m fun v => do return .profileAdded (← ProfileIdView.profile v)
  | 0x27 => reading ProfileIdView.validate m fun v => do return .profileRemoved (← ProfileIdView.profile v)
  | 0x28 => reading ProfileDetailsInquiryView.validate m fun v => do
    return .profileDetailsInquiry (← ProfileDetailsInquiryView.profile v) (← ProfileDetailsInquiryView.target v)
  | 0x29 => reading ProfileDetailsReplyView.validate m fun v => do
    return .profileDetailsReply (← ProfileDetailsReplyView.profile v) (← ProfileDetailsReplyView.target v)
      (← ProfileDetailsReplyView.data v)
  | 0x2F => reading ProfileSpecificDataView.validate m fun v => do
    return .profileSpecificData (← ProfileIdView.profile v) (← ProfileSpecificDataView.data v)
  | 0x30 => reading PropertyExchangeCapabilitiesView.validate m fun v => do
    return .propertyCapabilitiesInquiry (← PropertyExchangeCapabilitiesView.maxRequests v)
  | 0x31 => reading PropertyExchangeCapabilitiesView.validate m fun v => do
    return .propertyCapabilitiesReply (← PropertyExchangeCapabilitiesView.maxRequests v)
  | 0x34 => readProperty .getInquiry m
  | 0x35 => readProperty .getReply m
  | 0x36 => readProperty .setInquiry m
  | 0x37 => readProperty .setReply m
  | 0x38 => readProperty .subscriptionInquiry m
  | 0x39 => readProperty .subscriptionReply m
  | 0x3F => readProperty .notify m
  | 0x40 => return some .processCapabilitiesInquiry
  | 0x41 => reading ProcessInquiryCapabilitiesReplyView.validate m fun v => do
    return .processCapabilitiesReply (← ProcessInquiryCapabilitiesReplyView.supportedFeatures v)
  | 0x42 => reading MidiMessageReportInquiryView.validate m fun v => do
    return .reportInquiry (← MidiMessageReportInquiryView.messageDataControl v) (← MidiMessageReportInquiryView.systemMessageTypes v)
      (← MidiMessageReportInquiryView.channelControllerMessageTypes v) (← MidiMessageReportInquiryView.noteDataMessageTypes v)
  | 0x43 => reading MidiMessageReportReplyView.validate m fun v => do
    return .reportReply (← MidiMessageReportReplyView.systemMessageTypes v)
      (← MidiMessageReportReplyView.channelControllerMessageTypes v) (← MidiMessageReportReplyView.noteDataMessageTypes v)
  | 0x44 => return some .reportEnd
  | _ => return none

/-- What a sysex message says, if it is a MIDI-CI message of a known kind. -/
def understand (m : Sysex) : Except Fault (Option Said) := do
  match ← asView View.validate m with
  | none => return none
  | some v =>
    match ← readContent (← UniversalSysex.View.subtype v).toNat v with
    | none => return none
    | some c => return some ⟨← View.sourceMuid v, ← View.destinationMuid v, ← UniversalSysex.View.deviceId v, c⟩

/-- Saying it in a group of a universal MIDI packet connection: the packets. -/
def Said.packets (x : Said) (g : Byte) : Except Fault (List Packet) := do sendSysex7 (← x.say) g

/-- Saying it on a MIDI 1 cable: the bytes. -/
def Said.bytes (x : Said) (g : Byte) : Except Fault (List Byte) := do
  return (← (← x.packets g).mapM toMidi1ByteStream).flatten

/-- What is understood of the sysex messages a byte stream parser delivers. -/
def understandEvents (es : List Event) : Except Fault (List (Option Said)) :=
  (es.filterMap fun e => match e with | .sysex m => some m | .packet _ => none).mapM understand

end Midi.Spec
