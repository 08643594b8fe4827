import Verif.Model.CapabilityInquiry
import Verif.Model.Collector
import Verif.Model.ByteStream
import Verif.Model.FlexData
import Verif.Model.Processor

/-!
# A monitor

A program that shows everything about everything it receives: for every packet all that the views and getters for it return, and for every
sysex message that is collected from the packets all that the views for universal sysex and MIDI-CI messages return. What is shown does
not matter here, only whether a call fails; therefore functions of the model that cannot fail are left out.
-/

namespace Midi.Spec
open CI

/-- Something is shown. -/
def display {α : Type} (x : Except Fault α) : Except Fault Unit := do
  let _ ← x
  return ()

/-- Something is shown under a condition. -/
def displayIf {α : Type} (c : Bool) (x : Except Fault α) : Except Fault Unit := if c then display x else return ()

/-- There may be a view: what it tells is shown. -/
def displayView {α β : Type} (view : α → Except Fault (Option β)) (accessors : List (β → Except Fault Unit)) (x : α) :
    Except Fault Unit := do
  match ← view x with
  | some v => accessors.forM (· v)
  | none => return ()

/-- Everything about a packet: the view for its type, what there is in the view, what the message processor of the documentation would do
with it, its translation to the other protocol and its bytes on a MIDI 1 cable. -/
def displayPacket (p : Packet) : Except Fault Unit := do
  displayIf p.hasChannel p.channel
  display (processor p)
  displayIf p.isUtility (utilityView p)
  displayView asSystemView [] p
  displayView asMidi1View [fun v => display (asMidi2 v)] p
  displayView asMidi2View [] p
  displayView asSysex7View [fun v => (List.range (sysex7PayloadSize v)).forM fun i => display (sysex7PayloadByte v i)] p
  displayView asSysex8View [fun v => display (sysex8StreamId v),
    fun v => (List.range (sysex8PayloadSize v)).forM fun i => display (sysex8PayloadByte v i)] p
  displayView asFlexData [fun v => display (flexPayloadAsString v)] p
  displayView asEndpointDiscovery [] p
  displayView asEndpointInfo [fun v => display (EndpointInfoView.numFunctionBlocks v), fun v => display (EndpointInfoView.staticFunctionBlocks v),
    fun v => display (EndpointInfoView.protocols v), fun v => display (EndpointInfoView.extensions v)] p
  displayView asDeviceIdentity [] p
  displayView asEndpointName [fun v => display (endpointNamePayload v)] p
  displayView asProductInstanceId [fun v => display (productInstanceIdPayload v)] p
  displayView asStreamConfiguration [] p
  displayView asFunctionBlockDiscovery [] p
  displayView asFunctionBlockInfo [fun v => display (FunctionBlockInfoView.functionBlock v), fun v => display (FunctionBlockInfoView.firstGroup v),
    fun v => display (FunctionBlockInfoView.numGroupsSpanned v), fun v => display (FunctionBlockInfoView.ciMessageVersion v),
    fun v => display (FunctionBlockInfoView.maxNumSysex8Streams v)] p
  displayView asFunctionBlockName [fun v => display (functionBlockNamePayload v)] p
  display (toMidi1ByteStream p)

/-- A sysex message may have a MIDI-CI view (`as<…_view>`): what all such views tell and what this one tells is shown. -/
def displayCI (validate : Sysex → Except Fault Bool) (accessors : List (Sysex → Except Fault Unit)) : Sysex → Except Fault Unit :=
  displayView (asView validate) ([fun v => display (UniversalSysex.View.deviceId v), fun v => display (UniversalSysex.View.type v),
    fun v => display (UniversalSysex.View.subtype v), fun v => display (View.messageVersion v), fun v => display (View.sourceMuid v),
    fun v => display (View.destinationMuid v)] ++ accessors)

/-- What a view of a property message tells. -/
def displayProperty : List (Sysex → Except Fault Unit) :=
  [fun v => display (PropertyDataView.requestId v), fun v => display (PropertyDataView.headerSize v), fun v => display (PropertyDataView.header v),
   fun v => display (PropertyDataView.numberOfChunks v), fun v => display (PropertyDataView.numberOfThisChunk v),
   fun v => display (PropertyDataView.chunkSize v), fun v => display (PropertyDataView.chunk v)]

/-- The views of discovery messages. -/
def displayDiscovery (m : Sysex) : Except Fault Unit := do
  displayCI DiscoveryInquiryView.validate [fun v => display (Discovery.identity v), fun v => display (Discovery.categories v),
    fun v => display (Discovery.maximumMessageSize v), fun v => display (Discovery.outputPathId v)] m
  displayCI DiscoveryReplyView.validate [fun v => display (Discovery.identity v), fun v => display (Discovery.categories v),
    fun v => display (Discovery.maximumMessageSize v), fun v => display (Discovery.outputPathId v),
    fun v => display (DiscoveryReplyView.functionBlock v)] m

/-- Everything about a sysex message but what the views of discovery messages tell. -/
def displayOther (m : Sysex) : Except Fault Unit := do
  display (UniversalSysex.typeOf m); display (UniversalSysex.subtypeOf m); display (UniversalSysex.deviceIdOf m)
  display (UniversalSysex.isIdentityRequest m); display (UniversalSysex.isIdentityReply m)
  displayView UniversalSysex.asView [fun v => display (UniversalSysex.View.deviceId v), fun v => display (UniversalSysex.View.type v),
    fun v => display (UniversalSysex.View.subtype v)] m
  displayView UniversalSysex.asIdentityReplyView [fun v => display (UniversalSysex.IdentityReplyView.identity v)] m
  displayCI View.validate [] m
  displayCI EndpointInformationInquiryView.validate [fun v => display (EndpointInformationInquiryView.status v)] m
  displayCI EndpointInformationReplyView.validate [fun v => display (EndpointInformationReplyView.status v),
    fun v => display (EndpointInformationReplyView.dataLength v), fun v => display (EndpointInformationReplyView.data v)] m
  displayCI AckView.validate [fun v => display (Nack.transaction v), fun v => display (Nack.statusCode v), fun v => display (Nack.statusData v),
    fun v => display (Nack.details v), fun v => display (Nack.messageLength v), fun v => display (Nack.message v)] m
  displayCI NakView.validate [fun v => display (Nack.transaction v), fun v => display (Nack.statusCode v), fun v => display (Nack.statusData v),
    fun v => display (Nack.details v), fun v => display (Nack.messageLength v), fun v => display (Nack.message v)] m
  displayCI InvalidateMuidView.validate [fun v => display (InvalidateMuidView.targetMuid v)] m
  displayCI ProfileInquiryView.validate [] m
  displayCI ProfileInquiryReplyView.validate [fun v => display (ProfileInquiryReplyView.hasEnabled v),
    fun v => display (ProfileInquiryReplyView.hasDisabled v), fun v => display (ProfileInquiryReplyView.numEnabled v),
    fun v => display (ProfileInquiryReplyView.numDisabled v), fun v => display (ProfileInquiryReplyView.enabled v),
    fun v => display (ProfileInquiryReplyView.disabled v)] m
  displayCI ProfileIdView.validate [fun v => display (ProfileIdView.profile v)] m
  displayCI ProfileDestinationView.validate [fun v => display (ProfileIdView.profile v), fun v => display (ProfileDestinationView.numChannels v),
    fun v => display (ProfileDestinationView.params v)] m
  displayCI ProfileDetailsInquiryView.validate [fun v => display (ProfileDetailsInquiryView.profile v),
    fun v => display (ProfileDetailsInquiryView.target v)] m
  displayCI ProfileDetailsReplyView.validate [fun v => display (ProfileDetailsReplyView.profile v), fun v => display (ProfileDetailsReplyView.target v),
    fun v => display (ProfileDetailsReplyView.dataLength v), fun v => display (ProfileDetailsReplyView.data v)] m
  displayCI ProfileSpecificDataView.validate [fun v => display (ProfileIdView.profile v), fun v => display (ProfileSpecificDataView.dataSize v),
    fun v => display (ProfileSpecificDataView.data v)] m
  displayCI PropertyExchangeCapabilitiesView.validate [fun v => display (PropertyExchangeCapabilitiesView.maxRequests v),
    fun v => display (PropertyExchangeCapabilitiesView.versionMajor v), fun v => display (PropertyExchangeCapabilitiesView.versionMinor v)] m
  displayCI PropertyDataView.validate displayProperty m
  displayCI GetPropertyDataView.validate displayProperty m
  displayCI SetPropertyDataView.validate displayProperty m
  displayCI SubscriptionView.validate displayProperty m
  displayCI NotifyView.validate displayProperty m
  displayCI ProcessInquiryCapabilitiesReplyView.validate [fun v => display (ProcessInquiryCapabilitiesReplyView.supportedFeatures v)] m
  displayCI MidiMessageReportInquiryView.validate [fun v => display (MidiMessageReportInquiryView.messageDataControl v),
    fun v => display (MidiMessageReportInquiryView.systemMessageTypes v), fun v => display (MidiMessageReportInquiryView.channelControllerMessageTypes v),
    fun v => display (MidiMessageReportInquiryView.noteDataMessageTypes v)] m
  displayCI MidiMessageReportReplyView.validate [fun v => display (MidiMessageReportReplyView.systemMessageTypes v),
    fun v => display (MidiMessageReportReplyView.channelControllerMessageTypes v), fun v => display (MidiMessageReportReplyView.noteDataMessageTypes v)] m

/-- Everything about a sysex message. A careful program asks for the views of discovery messages only if the message is a MIDI-CI message at
all, that is if it has the view of these. -/
def displayMessage (careful : Bool) (m : Sysex) : Except Fault Unit := do
  displayOther m
  if careful then displayView (asView View.validate) [displayDiscovery] m else displayDiscovery m

/-- The monitor has a collector for each kind of sysex packets. -/
structure Monitor where
  c7 : Collector7 := {}
  c8 : Collector8 := {}

/-- The monitor receives a packet. -/
def Monitor.receive (careful : Bool) (w : Monitor) (p : Packet) : Except Fault Monitor := do
  displayPacket p
  let (c7, ms) ← w.c7.feed p
  ms.forM (displayMessage careful)
  let (c8, ns) ← w.c8.feed p
  ns.forM fun n => displayMessage careful n.1
  return ⟨c7, c8⟩

/-- The monitor receives some packets. -/
def Monitor.watch (careful : Bool) : Monitor → List Packet → Except Fault Monitor
  | w, [] => .ok w
  | w, p :: ps => do Monitor.watch careful (← w.receive careful p) ps

/-- The monitor is connected to a byte stream parser: it receives its packets, and the sysex messages it delivers itself. -/
def Monitor.watchEvents (careful : Bool) : Monitor → List Event → Except Fault Monitor
  | w, [] => .ok w
  | w, .packet p :: es => do Monitor.watchEvents careful (← w.receive careful p) es
  | w, .sysex m :: es => do displayMessage careful m; Monitor.watchEvents careful w es

/-- A MIDI 1 pitch bend whose second data byte has the high bit set. -/
def badBend (p : Packet) : Bool :=
  (p.byteAt 0).toNat / 16 == 2 && (p.byteAt 1).toNat / 16 == 14 && decide (128 ≤ (p.byteAt 3).toNat)

/-- A universal (non real time) sysex message with less than four bytes of data. -/
def tooShort (m : Sysex) : Bool := m.manufacturerID == 0x7E0000 && decide (m.data.length < 4)

end Midi.Spec
