import Verif.Props.Packet
import Verif.Props.Text
import Verif.Props.TextFormat
import Verif.Props.TextRead
import Verif.Props.Scaling
import Verif.Props.Arithmetic
import Verif.Props.Messages
import Verif.Props.Translation
import Verif.Props.SysexPackets
import Verif.Props.SysexSend
import Verif.Props.SysexAnyId
import Verif.Props.SysexHelpers
import Verif.Props.Collector7
import Verif.Props.Collector8
import Verif.Props.CollectorLimit
import Verif.Props.CollectorLimit8
import Verif.Props.CollectorExact
import Verif.Props.ByteStream
import Verif.Props.ByteStreamConvert
import Verif.Props.ByteStreamSysex
import Verif.Props.ByteStreamGroups
import Verif.Props.ByteStreamNormal
import Verif.Props.TranslationChain
import Verif.Props.Stream
import Verif.Props.FlexData
import Verif.Props.Classify
import Verif.Props.Views
import Verif.Props.ViewsExact
import Verif.Props.CIFactory
import Verif.Props.CIPayload
import Verif.Props.CITransport
import Verif.Props.PropertyExchange
import Verif.Props.Json
import Verif.Props.Identity
import Verif.Props.Jitter
import Verif.Props.JitterSchedule
import Verif.Props.JitterIdeal
import Verif.Props.JitterExact
import Verif.Props.Float
import Verif.Props.Dispatch
import Verif.Props.FloatPitch
import Verif.Props.Pitch
import Verif.Props.ReentrantCollector
import Verif.Props.ReentrantParser
import Verif.Props.ReentrantAfter
import Verif.Props.Edit
import Verif.Props.ExceptionsCollector
import Verif.Props.ExceptionsCollector8
import Verif.Props.ExceptionsParser
import Verif.Props.NoAllocation
import Verif.Props.Senders
import Verif.Conformance.CapabilityInquiryTests
import Verif.Conformance.ChannelVoiceMessageTests
import Verif.Conformance.CiProcessInquiryTests
import Verif.Conformance.CiProfileConfigurationTests
import Verif.Conformance.CiPropertyExchangeTests
import Verif.Conformance.DataMessageTests
import Verif.Conformance.ExtendedDataMessageTests
import Verif.Conformance.FlexDataMessageTests
import Verif.Conformance.HandWrittenTests
import Verif.Conformance.SystemMessageExamples
import Verif.Conformance.SysexExamples
import Verif.Conformance.Midi2ChannelVoiceMessageExamples
import Verif.Conformance.Midi1ChannelVoiceMessageExamples
import Verif.Conformance.ExtendedDataMessageExamples
import Verif.Conformance.DataMessageExamples
import Verif.Conformance.ChannelVoiceMessageExamples
import Verif.Conformance.JitterReductionTimestampsTests
import Verif.Conformance.Midi1ByteStreamTests
import Verif.Conformance.Midi1ChannelVoiceMessageTests
import Verif.Conformance.Midi2ChannelVoiceMessageTests
import Verif.Conformance.StreamMessageTests
import Verif.Conformance.SysexTestData
import Verif.Conformance.SysexTests
import Verif.Conformance.SystemMessageTests
import Verif.Conformance.TypeTests
import Verif.Conformance.UniversalPacketTests
import Verif.Conformance.UniversalSysexTests
import Verif.Conformance.UtilityMessageTests
import Verif.Conformance.ValueTranslationTests
import Verif.Props.TranslationOrder
import Verif.Props.OutputCount
import Verif.Spec.Damage
import Verif.Props.Damage
import Verif.Props.Multiplex
import Verif.Props.Manufacturers
import Verif.Spec.WordStream
import Verif.Spec.Text
import Verif.Props.TextWords
import Verif.Spec.Transfer
import Verif.Props.Transfer
import Verif.Props.TextEnd
import Verif.Props.Interchange
import Verif.Spec.Cable
import Verif.Lemmas.Cable
import Verif.Props.Cable
import Verif.Model.Release
import Verif.Lemmas.Release
import Verif.Props.Release
import Verif.Model.ReleaseParser
import Verif.Lemmas.ReleaseParser
import Verif.Lemmas.ReleaseParserLost
import Verif.Props.ReleaseParser
import Verif.Spec.Remake
import Verif.Lemmas.Remake
import Verif.Props.Remake
import Verif.Props.RemakeStream
import Verif.Props.RemakeData
import Verif.Spec.RemakeCI
import Verif.Lemmas.RemakeCI
import Verif.Props.RemakeCI
import Verif.Props.RemakeCIProfiles
import Verif.Props.RemakeCIProperties
import Verif.Props.JitterInvariance
import Verif.Model.ReleaseRest
import Verif.Props.ReleaseRest
import Verif.Props.DiscoveryReachable
import Verif.Props.Prompt
import Verif.Props.ReleaseParserGroups
import Verif.Lemmas.TextDigits
import Verif.Props.TextExact
import Verif.Props.Unique
import Verif.Model.ParserMemory
import Verif.Spec.Memory
import Verif.Props.Memory
import Verif.Model.Processor
import Verif.Spec.Actions
import Verif.Props.Actions
import Verif.Spec.Drift
import Verif.Props.Drift
import Verif.Spec.Punctual
import Verif.Props.Punctual
import Verif.Spec.Device
import Verif.Props.Device
import Verif.Spec.Box
import Verif.Props.Box
import Verif.Spec.Endpoint
import Verif.Props.Endpoint
import Verif.Spec.FlexText
import Verif.Props.FlexText
import Verif.Spec.Profiles
import Verif.Props.Profiles
import Verif.Spec.Sounding
import Verif.Props.Sounding
import Verif.Spec.Said
import Verif.Props.Said
import Verif.Spec.Store
import Verif.Props.Store
import Verif.Spec.SaidLost
import Verif.Props.SaidLost
import Verif.Spec.Panel
import Verif.Props.Panel
import Verif.Spec.Monitor
import Verif.Props.Monitor
import Verif.Spec.Limit
import Verif.Props.Limit
import Verif.Spec.Report
import Verif.Props.Report
import Verif.Spec.Mirror
import Verif.Props.Mirror
import Verif.Lemmas.FloatAccuracy
import Verif.Props.FloatAccuracy
import Verif.Spec.Merge
import Verif.Props.Merge
import Verif.Spec.Wire
import Verif.Props.Wire
import Verif.Spec.PatchBay
import Verif.Props.PatchBay
import Verif.Spec.Muids
import Verif.Props.Muids
import Verif.Spec.Performance
import Verif.Props.Performance
import Verif.Spec.Recording
import Verif.Props.Recording
