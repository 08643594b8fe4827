import Verif.Conformance.Prelude
import Verif.Model.ByteStream
import Verif.Model.CapabilityInquiry
import Verif.Model.Collector
import Verif.Model.Defaults
import Verif.Model.FlexData
import Verif.Model.Jitter
import Verif.Model.PitchTypes
import Verif.Model.Senders
import Verif.Model.Stream
import Verif.Model.Sysex
import Verif.Model.SysexPackets
import Verif.Model.TextFormat
import Verif.Model.Types
import Verif.Model.UniversalSysex
import Verif.Model.Reentrant

/-!
The expectations of tests/ci_process_inquiry_tests.cpp about the model. Generated by tools/conformance.
-/

namespace Midi.Conformance

open Midi

-- ci_process_inquiry,process_inquiry_capabilities_inquiry: lines 44-55
example : holds (do
  let x1 ← CI.makeProcessInquiryCapabilitiesInquiry 124147012 38611832 8
  let x2 ← CI.View.validate x1
  let x3 ← CI.asView CI.View.validate x1
  let x4 ← CI.makeView x1
  let x5 ← UniversalSysex.View.deviceId x4
  let x6 ← CI.View.messageVersion x4
  let x7 ← CI.View.sourceMuid x4
  let x8 ← CI.View.destinationMuid x4
  return decide (12 = (x1.data.length : Int)) && x2 && x3.isSome && decide (8 = (x5.toNat : Int)) && decide (2 =
    (x6.toNat : Int)) && decide (124147012 = (x7.toNat : Int)) && decide (38611832 = (x8.toNat : Int))) = true := by decide +kernel

-- ci_process_inquiry,process_inquiry_capabilities_reply: lines 71-83
example : holds (do
  let x1 ← CI.makeProcessInquiryCapabilitiesReply 124147012 38611832 19 8
  let x2 ← CI.View.validate x1
  let x3 ← CI.ProcessInquiryCapabilitiesReplyView.validate x1
  let x4 ← CI.makeView x1
  let x5 ← CI.View.messageVersion x4
  let x6 ← CI.View.sourceMuid x4
  let x7 ← CI.View.destinationMuid x4
  let x8 ← UniversalSysex.View.deviceId x4
  let x9 ← CI.ProcessInquiryCapabilitiesReplyView.supportedFeatures x4
  return decide (13 = (x1.data.length : Int)) && x2 && x3 && decide (2 = (x5.toNat : Int)) && decide (124147012 =
    (x6.toNat : Int)) && decide (38611832 = (x7.toNat : Int)) && decide (8 = (x8.toNat : Int)) && decide (19 =
    (x9.toNat : Int))) = true := by decide +kernel

-- ci_process_inquiry,midi_message_report_inquiry: lines 99-111
example : holds (do
  let x1 ← CI.makeMidiMessageReportInquiry 124147012 38611832 18 52 86 120 4
  let x2 ← CI.View.validate x1
  let x3 ← CI.MidiMessageReportInquiryView.validate x1
  let x4 ← CI.makeView x1
  let x5 ← CI.MidiMessageReportInquiryView.messageDataControl x4
  let x6 ← CI.MidiMessageReportInquiryView.systemMessageTypes x4
  let x7 ← CI.MidiMessageReportInquiryView.channelControllerMessageTypes x4
  let x8 ← CI.MidiMessageReportInquiryView.noteDataMessageTypes x4
  let x9 ← UniversalSysex.View.deviceId x4
  return decide (17 = (x1.data.length : Int)) && x2 && x3 && decide (18 = (x5.toNat : Int)) && decide (52 = (x6.toNat
    : Int)) && decide (86 = (x7.toNat : Int)) && decide (120 = (x8.toNat : Int)) && decide (4 = (x9.toNat : Int))) = true := by decide +kernel

-- ci_process_inquiry,midi_message_report_inquiry: lines 113-115
example : holds (do
  let x1 ← CI.makeMidiMessageReportInquiry 124147012 38611832 18 52 86 120 4
  let x2 ← CI.makeView x1
  let x3 ← CI.View.messageVersion x2
  let x4 ← CI.View.sourceMuid x2
  let x5 ← CI.View.destinationMuid x2
  return decide (2 = (x3.toNat : Int)) && decide (124147012 = (x4.toNat : Int)) && decide (38611832 = (x5.toNat :
    Int))) = true := by decide +kernel

-- ci_process_inquiry,midi_message_report_reply: lines 131-144
example : holds (do
  let x1 ← CI.makeMidiMessageReportReply 124147012 118 84 50 10
  let x2 ← CI.View.validate x1
  let x3 ← CI.MidiMessageReportReplyView.validate x1
  let x4 ← CI.makeView x1
  let x5 ← CI.MidiMessageReportReplyView.systemMessageTypes x4
  let x6 ← CI.MidiMessageReportReplyView.channelControllerMessageTypes x4
  let x7 ← CI.MidiMessageReportReplyView.noteDataMessageTypes x4
  let x8 ← UniversalSysex.View.deviceId x4
  let x9 ← CI.View.messageVersion x4
  return decide (16 = (x1.data.length : Int)) && x2 && x3 && decide (118 = (x5.toNat : Int)) && decide (84 = (x6.toNat
    : Int)) && decide (50 = (x7.toNat : Int)) && decide (10 = (x8.toNat : Int)) && decide (2 = (x9.toNat : Int))) = true := by decide +kernel

-- ci_process_inquiry,midi_message_report_reply: lines 145-146
example : holds (do
  let x1 ← CI.makeMidiMessageReportReply 124147012 118 84 50 10
  let x2 ← CI.makeView x1
  let x3 ← CI.View.sourceMuid x2
  let x4 ← CI.View.destinationMuid x2
  return decide (124147012 = (x3.toNat : Int)) && decide (268435455 = (x4.toNat : Int))) = true := by decide +kernel

-- ci_process_inquiry,midi_message_report_end: lines 162-173
example : holds (do
  let x1 ← CI.makeMidiMessageReportEnd 124147012 3
  let x2 ← CI.View.validate x1
  let x3 ← CI.makeView x1
  let x4 ← UniversalSysex.View.deviceId x3
  let x5 ← CI.View.messageVersion x3
  let x6 ← CI.View.sourceMuid x3
  let x7 ← CI.View.destinationMuid x3
  return decide (12 = (x1.data.length : Int)) && x2 && decide (3 = (x4.toNat : Int)) && decide (2 = (x5.toNat : Int))
    && decide (124147012 = (x6.toNat : Int)) && decide (268435455 = (x7.toNat : Int))) = true := by decide +kernel

end Midi.Conformance
