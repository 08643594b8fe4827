import Verif.Conformance.Prelude
import Verif.Model.ByteStream
import Verif.Model.CapabilityInquiry
import Verif.Model.Collector
import Verif.Model.Defaults
import Verif.Model.FlexData
import Verif.Model.Jitter
import Verif.Model.PitchTypes
import Verif.Model.Senders
import Verif.Model.Stream
import Verif.Model.Sysex
import Verif.Model.SysexPackets
import Verif.Model.TextFormat
import Verif.Model.Types
import Verif.Model.UniversalSysex
import Verif.Model.Reentrant

/-!
The expectations of tests/ci_profile_configuration_tests.cpp about the model. Generated by tools/conformance.
-/

namespace Midi.Conformance

open Midi

-- ci_profile_configuration,profile_id: lines 43-52
example : holds (do
  return decide (126 = ((⟨126, 0, 0, 0, 0⟩ : CI.ProfileId).b1.toNat : Int)) && decide (0 = ((⟨126, 0, 0, 0, 0⟩ :
    CI.ProfileId).b2.toNat : Int)) && decide (0 = ((⟨126, 0, 0, 0, 0⟩ : CI.ProfileId).b3.toNat : Int)) && decide (0 =
    ((⟨126, 0, 0, 0, 0⟩ : CI.ProfileId).b4.toNat : Int)) && decide (0 = ((⟨126, 0, 0, 0, 0⟩ : CI.ProfileId).b5.toNat :
    Int)) && decide (126 = ((⟨126, 2, 3, 4, 5⟩ : CI.ProfileId).b1.toNat : Int)) && decide (2 = ((⟨126, 2, 3, 4, 5⟩ :
    CI.ProfileId).b2.toNat : Int)) && decide (3 = ((⟨126, 2, 3, 4, 5⟩ : CI.ProfileId).b3.toNat : Int))) = true := by decide +kernel

-- ci_profile_configuration,profile_id: lines 53-65
example : holds (do
  return decide (4 = ((⟨126, 2, 3, 4, 5⟩ : CI.ProfileId).b4.toNat : Int)) && decide (5 = ((⟨126, 2, 3, 4, 5⟩ :
    CI.ProfileId).b5.toNat : Int)) && decide (0 = ((⟨0, 33, 9, 127, 1⟩ : CI.ProfileId).b1.toNat : Int)) && decide (33
    = ((⟨0, 33, 9, 127, 1⟩ : CI.ProfileId).b2.toNat : Int)) && decide (9 = ((⟨0, 33, 9, 127, 1⟩ :
    CI.ProfileId).b3.toNat : Int)) && decide (127 = ((⟨0, 33, 9, 127, 1⟩ : CI.ProfileId).b4.toNat : Int)) && decide (1
    = ((⟨0, 33, 9, 127, 1⟩ : CI.ProfileId).b5.toNat : Int)) && ((⟨126, 0, 0, 0, 0⟩ : CI.ProfileId).eqv (⟨126, 0, 0, 0,
    0⟩ : CI.ProfileId))) = true := by decide +kernel

-- ci_profile_configuration,profile_id: lines 66-75
example : holds (do
  return (!((⟨126, 0, 0, 0, 0⟩ : CI.ProfileId).eqv (⟨126, 2, 3, 4, 5⟩ : CI.ProfileId))) && (!((⟨126, 0, 0, 0, 0⟩ :
    CI.ProfileId).eqv (⟨0, 33, 9, 127, 1⟩ : CI.ProfileId))) && (!((⟨126, 2, 3, 4, 5⟩ : CI.ProfileId).eqv (⟨126, 0, 0,
    0, 0⟩ : CI.ProfileId))) && ((⟨126, 2, 3, 4, 5⟩ : CI.ProfileId).eqv (⟨126, 2, 3, 4, 5⟩ : CI.ProfileId)) &&
    (!((⟨126, 2, 3, 4, 5⟩ : CI.ProfileId).eqv (⟨0, 33, 9, 127, 1⟩ : CI.ProfileId))) && (!((⟨0, 33, 9, 127, 1⟩ :
    CI.ProfileId).eqv (⟨126, 0, 0, 0, 0⟩ : CI.ProfileId)))) = true := by decide +kernel

-- ci_profile_configuration,profile_id: lines 76-88
example : holds (do
  return (!((⟨0, 33, 9, 127, 1⟩ : CI.ProfileId).eqv (⟨126, 2, 3, 4, 5⟩ : CI.ProfileId))) && ((⟨0, 33, 9, 127, 1⟩ :
    CI.ProfileId).eqv (⟨0, 33, 9, 127, 1⟩ : CI.ProfileId)) && (!((⟨126, 2, 3, 4, 5⟩ : CI.ProfileId).eqv (⟨126, 0, 0,
    0, 0⟩ : CI.ProfileId))) && ((⟨126, 2, 3, 4, 5⟩ : CI.ProfileId).eqv (⟨126, 2, 3, 4, 5⟩ : CI.ProfileId)) &&
    (!((⟨126, 2, 3, 4, 5⟩ : CI.ProfileId).eqv (⟨0, 33, 9, 127, 1⟩ : CI.ProfileId))) && (!((⟨126, 2, 3, 4, 5⟩ :
    CI.ProfileId).eqv (⟨126, 2, 3, 5, 5⟩ : CI.ProfileId)))) = true := by decide +kernel

-- ci_profile_configuration,profile_id: lines 89-91
example : holds (do
  return (!((⟨126, 2, 3, 4, 5⟩ : CI.ProfileId).eqv (⟨126, 2, 3, 4, 6⟩ : CI.ProfileId))) && (!((⟨126, 2, 3, 5, 5⟩ :
    CI.ProfileId).eqv (⟨126, 2, 3, 4, 6⟩ : CI.ProfileId))) && (!((⟨126, 2, 3, 4, 6⟩ : CI.ProfileId).eqv (⟨126, 2, 3,
    5, 5⟩ : CI.ProfileId)))) = true := by decide +kernel

-- ci_profile_configuration,profile_inquiry: lines 104-115
example : holds (do
  let x1 := (⟨8257536, [127, 13, 32, 2, 120, 86, 52, 18, 119, 85, 51, 17]⟩ : Sysex)
  let x2 ← CI.ProfileInquiryView.validate x1
  let x3 ← CI.asView CI.ProfileInquiryView.validate x1
  let x4 ← CI.makeView x1
  let x5 ← UniversalSysex.View.deviceId x4
  let x6 ← UniversalSysex.View.type x4
  let x7 ← UniversalSysex.View.subtype x4
  let x8 ← CI.View.messageVersion x4
  let x9 ← CI.View.sourceMuid x4
  let x10 ← CI.View.destinationMuid x4
  return x2 && x3.isSome && decide (127 = (x5.toNat : Int)) && decide (32269 = (x6.toNat : Int)) && decide (32 =
    (x7.toNat : Int)) && decide (2 = (x8.toNat : Int)) && decide (38611832 = (x9.toNat : Int)) && decide (36498167 =
    (x10.toNat : Int))) = true := by decide +kernel

-- ci_profile_configuration,profile_inquiry: lines 122-150
example : holds (do
  let x1 := (⟨8257536, [127, 13, 32, 2, 120, 86, 52, 18, 119, 85, 51, 17]⟩ : Sysex)
  let x2 ← CI.ProfileInquiryView.validate x1
  let x3 ← CI.asView CI.ProfileInquiryView.validate x1
  let x4 := (⟨8257536, [127, 13, 32, 2, 120, 86, 52, 18, 119, 85, 51, 17, 4]⟩ : Sysex)
  let x5 ← CI.ProfileInquiryView.validate x4
  let x6 ← CI.asView CI.ProfileInquiryView.validate x4
  let x7 := (⟨8257536, [127, 13, 33, 0, 120, 86, 52, 18, 119, 85, 51, 17, 4]⟩ : Sysex)
  let x8 ← CI.ProfileInquiryView.validate x7
  let x9 ← CI.asView CI.ProfileInquiryView.validate x7
  let x10 := (⟨8257536, [127, 13, 32, 2, 120, 86, 52, 18, 119, 85, 51]⟩ : Sysex)
  let x11 ← CI.ProfileInquiryView.validate x10
  let x12 ← CI.asView CI.ProfileInquiryView.validate x10
  return x2 && x3.isSome && x5 && x6.isSome && (!x8) && (!x9.isSome) && (!x11) && (!x12.isSome)) = true := by decide +kernel

-- ci_profile_configuration,profile_inquiry: lines 157-176
example : holds (do
  let x1 := (⟨8457, [4, 5, 6, 7, 8, 9, 10, 11, 12, 13, 14, 247]⟩ : Sysex)
  let x2 ← CI.ProfileInquiryView.validate x1
  let x3 ← CI.asView CI.ProfileInquiryView.validate x1
  let x4 ← CI.makeProfileInquiry 124147012 38611832 8
  let x5 ← CI.ProfileInquiryView.validate x4
  let x6 ← CI.asView CI.ProfileInquiryView.validate x4
  let x7 ← CI.makeView x4
  let x8 ← UniversalSysex.View.deviceId x7
  let x9 ← CI.View.messageVersion x7
  let x10 ← CI.View.sourceMuid x7
  return (!x2) && (!x3.isSome) && x5 && x6.isSome && decide (12 = ((UniversalSysex.View.dataSize x7) : Int)) && decide
    (8 = (x8.toNat : Int)) && decide (2 = (x9.toNat : Int)) && decide (124147012 = (x10.toNat : Int))) = true := by decide +kernel

-- ci_profile_configuration,profile_inquiry: lines 177-195
example : holds (do
  let x1 ← CI.makeProfileInquiry 124147012 38611832 8
  let x2 ← CI.makeView x1
  let x3 ← CI.View.destinationMuid x2
  let x4 ← CI.makeProfileInquiry 119944516 5 127
  let x5 ← CI.makeView x4
  let x6 ← UniversalSysex.View.deviceId x5
  let x7 ← CI.View.messageVersion x5
  let x8 ← CI.View.sourceMuid x5
  let x9 ← CI.View.destinationMuid x5
  return decide (38611832 = (x3.toNat : Int)) && decide (12 = ((UniversalSysex.View.dataSize x5) : Int)) && decide
    (127 = (x6.toNat : Int)) && decide (2 = (x7.toNat : Int)) && decide (119944516 = (x8.toNat : Int)) && decide (5 =
    (x9.toNat : Int))) = true := by decide +kernel

-- ci_profile_configuration,profile_inquiry_reply_view_make_profiles: lines 213-228
example : holds (do
  let x1 := (⟨8257536, [127, 13, 33, 0, 120, 86, 52, 18, 68, 51, 34, 17, 2, 0, 0, 33, 9, 42, 7, 126, 3, 2, 1, 0, 1, 0,
    126, 1, 2, 3, 4, 0, 0]⟩ : Sysex)
  let x2 ← CI.ProfileInquiryReplyView.validate x1
  let x3 ← CI.makeView x1
  let x4 ← CI.ProfileInquiryReplyView.enabled x3
  return x2 && decide (2 = (x4.length : Int)) && decide (0 = ((x4.getD 0 default).b1.toNat : Int)) && decide (33 =
    ((x4.getD 0 default).b2.toNat : Int)) && decide (9 = ((x4.getD 0 default).b3.toNat : Int)) && decide (42 =
    ((x4.getD 0 default).b4.toNat : Int)) && decide (7 = ((x4.getD 0 default).b5.toNat : Int)) && decide (126 =
    ((x4.getD 1 default).b1.toNat : Int))) = true := by decide +kernel

-- ci_profile_configuration,profile_inquiry_reply_view_make_profiles: lines 229-242
example : holds (do
  let x1 := (⟨8257536, [127, 13, 33, 0, 120, 86, 52, 18, 68, 51, 34, 17, 2, 0, 0, 33, 9, 42, 7, 126, 3, 2, 1, 0, 1, 0,
    126, 1, 2, 3, 4, 0, 0]⟩ : Sysex)
  let x2 ← CI.makeView x1
  let x3 ← CI.ProfileInquiryReplyView.enabled x2
  let x4 ← CI.ProfileInquiryReplyView.disabled x2
  return decide (3 = ((x3.getD 1 default).b2.toNat : Int)) && decide (2 = ((x3.getD 1 default).b3.toNat : Int)) &&
    decide (1 = ((x3.getD 1 default).b4.toNat : Int)) && decide (0 = ((x3.getD 1 default).b5.toNat : Int)) && decide
    (1 = (x4.length : Int)) && decide (126 = ((x4.getD 0 default).b1.toNat : Int)) && decide (1 = ((x4.getD 0
    default).b2.toNat : Int)) && decide (2 = ((x4.getD 0 default).b3.toNat : Int))) = true := by decide +kernel

-- ci_profile_configuration,profile_inquiry_reply_view_make_profiles: line 243
example : holds (do
  let x1 := (⟨8257536, [127, 13, 33, 0, 120, 86, 52, 18, 68, 51, 34, 17, 2, 0, 0, 33, 9, 42, 7, 126, 3, 2, 1, 0, 1, 0,
    126, 1, 2, 3, 4, 0, 0]⟩ : Sysex)
  let x2 ← CI.makeView x1
  let x3 ← CI.ProfileInquiryReplyView.disabled x2
  return decide (3 = ((x3.getD 0 default).b4.toNat : Int))) = true := by decide +kernel

-- ci_profile_configuration,profile_inquiry_reply_view: lines 259-270
example : holds (do
  let x1 := (⟨8257536, [10, 13, 33, 2, 120, 86, 52, 18, 119, 85, 51, 17, 0, 0, 0, 0]⟩ : Sysex)
  let x2 ← CI.ProfileInquiryReplyView.validate x1
  let x3 ← CI.asView CI.ProfileInquiryReplyView.validate x1
  let x4 ← CI.makeView x1
  let x5 ← UniversalSysex.View.deviceId x4
  let x6 ← UniversalSysex.View.type x4
  let x7 ← UniversalSysex.View.subtype x4
  let x8 ← CI.View.messageVersion x4
  let x9 ← CI.View.sourceMuid x4
  let x10 ← CI.View.destinationMuid x4
  return x2 && x3.isSome && decide (10 = (x5.toNat : Int)) && decide (32269 = (x6.toNat : Int)) && decide (33 =
    (x7.toNat : Int)) && decide (2 = (x8.toNat : Int)) && decide (38611832 = (x9.toNat : Int)) && decide (36498167 =
    (x10.toNat : Int))) = true := by decide +kernel

-- ci_profile_configuration,profile_inquiry_reply_view: lines 272-306
example : holds (do
  let x1 := (⟨8257536, [10, 13, 33, 2, 120, 86, 52, 18, 119, 85, 51, 17, 0, 0, 0, 0]⟩ : Sysex)
  let x2 ← CI.makeView x1
  let x3 ← CI.ProfileInquiryReplyView.hasEnabled x2
  let x4 ← CI.ProfileInquiryReplyView.hasDisabled x2
  let x5 ← CI.ProfileInquiryReplyView.numEnabled x2
  let x6 ← CI.ProfileInquiryReplyView.numDisabled x2
  let x7 ← CI.ProfileInquiryReplyView.enabled x2
  let x8 ← CI.ProfileInquiryReplyView.disabled x2
  let x9 := (⟨8257536, [10, 13, 33, 2, 120, 86, 52, 18, 119, 85, 51, 17, 0, 0, 0, 0, 0, 0, 0]⟩ : Sysex)
  let x10 ← CI.ProfileInquiryReplyView.validate x9
  let x11 ← CI.asView CI.ProfileInquiryReplyView.validate x9
  return (!x3) && (!x4) && decide (0 = (x5.toNat : Int)) && decide (0 = (x6.toNat : Int)) && x7.isEmpty && x8.isEmpty
    && x10 && x11.isSome) = true := by decide +kernel

-- ci_profile_configuration,profile_inquiry_reply_view: lines 314-325
example : holds (do
  let x1 := (⟨8257536, [10, 13, 33, 2, 120, 86, 52, 18, 119, 85, 51, 17, 0, 0, 2, 0, 126, 1, 2, 3, 4, 0, 33, 9, 11,
    77]⟩ : Sysex)
  let x2 ← CI.ProfileInquiryReplyView.validate x1
  let x3 ← CI.asView CI.ProfileInquiryReplyView.validate x1
  let x4 ← CI.makeView x1
  let x5 ← UniversalSysex.View.deviceId x4
  let x6 ← UniversalSysex.View.type x4
  let x7 ← UniversalSysex.View.subtype x4
  let x8 ← CI.View.messageVersion x4
  let x9 ← CI.View.sourceMuid x4
  let x10 ← CI.View.destinationMuid x4
  return x2 && x3.isSome && decide (10 = (x5.toNat : Int)) && decide (32269 = (x6.toNat : Int)) && decide (33 =
    (x7.toNat : Int)) && decide (2 = (x8.toNat : Int)) && decide (38611832 = (x9.toNat : Int)) && decide (36498167 =
    (x10.toNat : Int))) = true := by decide +kernel

-- ci_profile_configuration,profile_inquiry_reply_view: lines 327-348
example : holds (do
  let x1 := (⟨8257536, [10, 13, 33, 2, 120, 86, 52, 18, 119, 85, 51, 17, 0, 0, 2, 0, 126, 1, 2, 3, 4, 0, 33, 9, 11,
    77]⟩ : Sysex)
  let x2 ← CI.makeView x1
  let x3 ← CI.ProfileInquiryReplyView.hasEnabled x2
  let x4 ← CI.ProfileInquiryReplyView.enabled x2
  let x5 ← CI.ProfileInquiryReplyView.hasDisabled x2
  let x6 ← CI.ProfileInquiryReplyView.numDisabled x2
  let x7 ← CI.ProfileInquiryReplyView.disabled x2
  let x8 := (⟨8257536, [2, 13, 33, 2, 119, 85, 51, 17, 120, 86, 52, 18, 2, 0, 65, 0, 0, 8, 9, 126, 3, 2, 1, 0, 0, 0]⟩
    : Sysex)
  let x9 ← CI.ProfileInquiryReplyView.validate x8
  return (!x3) && x4.isEmpty && x5 && decide (2 = (x6.toNat : Int)) && decide (2 = (x7.length : Int)) && decide (0 =
    (if List.take 5 (x1.data.drop 16) = List.take 5 [(x7.getD 0 default).b1, (x7.getD 0 default).b2, (x7.getD 0
    default).b3, (x7.getD 0 default).b4, (x7.getD 0 default).b5] then 0 else 1)) && decide (0 = (if List.take 5
    ((x1.data.drop 16).drop 5) = List.take 5 [(x7.getD 1 default).b1, (x7.getD 1 default).b2, (x7.getD 1 default).b3,
    (x7.getD 1 default).b4, (x7.getD 1 default).b5] then 0 else 1)) && x9) = true := by decide +kernel

-- ci_profile_configuration,profile_inquiry_reply_view: lines 349-361
example : holds (do
  let x1 := (⟨8257536, [2, 13, 33, 2, 119, 85, 51, 17, 120, 86, 52, 18, 2, 0, 65, 0, 0, 8, 9, 126, 3, 2, 1, 0, 0, 0]⟩
    : Sysex)
  let x2 ← CI.asView CI.ProfileInquiryReplyView.validate x1
  let x3 ← CI.makeView x1
  let x4 ← UniversalSysex.View.deviceId x3
  let x5 ← UniversalSysex.View.type x3
  let x6 ← UniversalSysex.View.subtype x3
  let x7 ← CI.View.messageVersion x3
  let x8 ← CI.View.sourceMuid x3
  let x9 ← CI.View.destinationMuid x3
  let x10 ← CI.ProfileInquiryReplyView.hasEnabled x3
  return x2.isSome && decide (2 = (x4.toNat : Int)) && decide (32269 = (x5.toNat : Int)) && decide (33 = (x6.toNat :
    Int)) && decide (2 = (x7.toNat : Int)) && decide (36498167 = (x8.toNat : Int)) && decide (38611832 = (x9.toNat :
    Int)) && x10) = true := by decide +kernel

-- ci_profile_configuration,profile_inquiry_reply_view: lines 362-384
example : holds (do
  let x1 := (⟨8257536, [2, 13, 33, 2, 119, 85, 51, 17, 120, 86, 52, 18, 2, 0, 65, 0, 0, 8, 9, 126, 3, 2, 1, 0, 0, 0]⟩
    : Sysex)
  let x2 ← CI.makeView x1
  let x3 ← CI.ProfileInquiryReplyView.numEnabled x2
  let x4 ← CI.ProfileInquiryReplyView.enabled x2
  let x5 ← CI.ProfileInquiryReplyView.hasDisabled x2
  let x6 ← CI.ProfileInquiryReplyView.numDisabled x2
  let x7 ← CI.ProfileInquiryReplyView.disabled x2
  let x8 := (⟨8257536, [127, 13, 33, 2, 18, 52, 86, 120, 120, 86, 52, 18, 1, 0, 0, 33, 9, 42, 7, 3, 0, 126, 1, 2, 3,
    4, 0, 33, 9, 11, 77, 126, 4, 3, 2, 1]⟩ : Sysex)
  let x9 ← CI.ProfileInquiryReplyView.validate x8
  return decide (2 = (x3.toNat : Int)) && decide (2 = (x4.length : Int)) && decide (0 = (if List.take 5 (x1.data.drop
    14) = List.take 5 [(x4.getD 0 default).b1, (x4.getD 0 default).b2, (x4.getD 0 default).b3, (x4.getD 0 default).b4,
    (x4.getD 0 default).b5] then 0 else 1)) && decide (0 = (if List.take 5 ((x1.data.drop 14).drop 5) = List.take 5
    [(x4.getD 1 default).b1, (x4.getD 1 default).b2, (x4.getD 1 default).b3, (x4.getD 1 default).b4, (x4.getD 1
    default).b5] then 0 else 1)) && (!x5) && decide (0 = (x6.toNat : Int)) && x7.isEmpty && x9) = true := by decide +kernel

-- ci_profile_configuration,profile_inquiry_reply_view: lines 385-397
example : holds (do
  let x1 := (⟨8257536, [127, 13, 33, 2, 18, 52, 86, 120, 120, 86, 52, 18, 1, 0, 0, 33, 9, 42, 7, 3, 0, 126, 1, 2, 3,
    4, 0, 33, 9, 11, 77, 126, 4, 3, 2, 1]⟩ : Sysex)
  let x2 ← CI.asView CI.ProfileInquiryReplyView.validate x1
  let x3 ← CI.makeView x1
  let x4 ← UniversalSysex.View.deviceId x3
  let x5 ← UniversalSysex.View.type x3
  let x6 ← UniversalSysex.View.subtype x3
  let x7 ← CI.View.messageVersion x3
  let x8 ← CI.View.sourceMuid x3
  let x9 ← CI.View.destinationMuid x3
  let x10 ← CI.ProfileInquiryReplyView.hasEnabled x3
  return x2.isSome && decide (127 = (x4.toNat : Int)) && decide (32269 = (x5.toNat : Int)) && decide (33 = (x6.toNat :
    Int)) && decide (2 = (x7.toNat : Int)) && decide (253073938 = (x8.toNat : Int)) && decide (38611832 = (x9.toNat :
    Int)) && x10) = true := by decide +kernel

-- ci_profile_configuration,profile_inquiry_reply_view: lines 398-417
example : holds (do
  let x1 := (⟨8257536, [127, 13, 33, 2, 18, 52, 86, 120, 120, 86, 52, 18, 1, 0, 0, 33, 9, 42, 7, 3, 0, 126, 1, 2, 3,
    4, 0, 33, 9, 11, 77, 126, 4, 3, 2, 1]⟩ : Sysex)
  let x2 ← CI.makeView x1
  let x3 ← CI.ProfileInquiryReplyView.numEnabled x2
  let x4 ← CI.ProfileInquiryReplyView.enabled x2
  let x5 ← CI.ProfileInquiryReplyView.hasDisabled x2
  let x6 ← CI.ProfileInquiryReplyView.numDisabled x2
  let x7 ← CI.ProfileInquiryReplyView.disabled x2
  return decide (1 = (x3.toNat : Int)) && decide (1 = (x4.length : Int)) && decide (0 = (if List.take 5 (x1.data.drop
    14) = List.take 5 [(x4.getD 0 default).b1, (x4.getD 0 default).b2, (x4.getD 0 default).b3, (x4.getD 0 default).b4,
    (x4.getD 0 default).b5] then 0 else 1)) && x5 && decide (3 = (x6.toNat : Int)) && decide (3 = (x7.length : Int))
    && decide (0 = (if List.take 5 (((x1.data.drop 14).drop 5).drop 2) = List.take 5 [(x7.getD 0 default).b1, (x7.getD
    0 default).b2, (x7.getD 0 default).b3, (x7.getD 0 default).b4, (x7.getD 0 default).b5] then 0 else 1)) && decide
    (0 = (if List.take 5 ((((x1.data.drop 14).drop 5).drop 2).drop 5) = List.take 5 [(x7.getD 1 default).b1, (x7.getD
    1 default).b2, (x7.getD 1 default).b3, (x7.getD 1 default).b4, (x7.getD 1 default).b5] then 0 else 1))) = true := by decide +kernel

-- ci_profile_configuration,profile_inquiry_reply_view: lines 417-453
example : holds (do
  let x1 := (⟨8257536, [127, 13, 33, 2, 18, 52, 86, 120, 120, 86, 52, 18, 1, 0, 0, 33, 9, 42, 7, 3, 0, 126, 1, 2, 3,
    4, 0, 33, 9, 11, 77, 126, 4, 3, 2, 1]⟩ : Sysex)
  let x2 ← CI.makeView x1
  let x3 ← CI.ProfileInquiryReplyView.disabled x2
  let x4 := (⟨8257536, [10, 13, 20, 2, 120, 86, 52, 18, 18, 52, 86, 120, 0, 0, 2, 0, 126, 1, 2, 3, 4, 0, 33, 9, 0,
    11]⟩ : Sysex)
  let x5 ← CI.ProfileInquiryReplyView.validate x4
  let x6 ← CI.asView CI.ProfileInquiryReplyView.validate x4
  let x7 := (⟨8257536, [10, 13, 33, 2, 120, 86, 52, 18, 18, 52, 86, 120, 0, 1, 2, 0, 126, 1, 2, 3, 4, 0, 33, 9, 0,
    11]⟩ : Sysex)
  let x8 ← CI.ProfileInquiryReplyView.validate x7
  let x9 ← CI.asView CI.ProfileInquiryReplyView.validate x7
  let x10 := (⟨8257536, [127, 13, 33, 2, 18, 52, 86, 120, 120, 86, 52, 18, 1, 0, 0, 33, 9, 42, 7, 12, 3, 0, 126, 1, 2,
    3, 4, 0, 33, 9, 11, 77, 126, 1, 2, 3]⟩ : Sysex)
  let x11 ← CI.ProfileInquiryReplyView.validate x10
  let x12 ← CI.asView CI.ProfileInquiryReplyView.validate x10
  let x13 := (⟨8457, [4, 5, 6, 7, 8, 9, 10, 11, 12, 13, 14, 247]⟩ : Sysex)
  let x14 ← CI.ProfileInquiryReplyView.validate x13
  return decide (0 = (if List.take 5 (((((x1.data.drop 14).drop 5).drop 2).drop 5).drop 5) = List.take 5 [(x3.getD 2
    default).b1, (x3.getD 2 default).b2, (x3.getD 2 default).b3, (x3.getD 2 default).b4, (x3.getD 2 default).b5] then
    0 else 1)) && (!x5) && (!x6.isSome) && (!x8) && (!x9.isSome) && (!x11) && (!x12.isSome) && (!x14)) = true := by decide +kernel

-- ci_profile_configuration,profile_inquiry_reply_view: line 454
example : holds (do
  let x1 := (⟨8457, [4, 5, 6, 7, 8, 9, 10, 11, 12, 13, 14, 247]⟩ : Sysex)
  let x2 ← CI.asView CI.ProfileInquiryReplyView.validate x1
  return (!x2.isSome)) = true := by decide +kernel

-- ci_profile_configuration,make_profile_inquiry_reply_from_carray: lines 468-479
example : holds (do
  let x1 ← CI.makeProfileInquiryReplyN 124147012 18193 [] 0 [] 0 8
  let x2 ← CI.ProfileInquiryReplyView.validate x1
  let x3 ← CI.asView CI.ProfileInquiryReplyView.validate x1
  let x4 ← CI.makeView x1
  let x5 ← UniversalSysex.View.deviceId x4
  let x6 ← UniversalSysex.View.type x4
  let x7 ← UniversalSysex.View.subtype x4
  let x8 ← CI.View.messageVersion x4
  let x9 ← CI.View.sourceMuid x4
  return decide (16 = (x1.data.length : Int)) && x2 && x3.isSome && decide (8 = (x5.toNat : Int)) && decide (32269 =
    (x6.toNat : Int)) && decide (33 = (x7.toNat : Int)) && decide (2 = (x8.toNat : Int)) && decide (124147012 =
    (x9.toNat : Int))) = true := by decide +kernel

-- ci_profile_configuration,make_profile_inquiry_reply_from_carray: lines 480-507
example : holds (do
  let x1 ← CI.makeProfileInquiryReplyN 124147012 18193 [] 0 [] 0 8
  let x2 ← CI.makeView x1
  let x3 ← CI.View.destinationMuid x2
  let x4 ← CI.ProfileInquiryReplyView.hasEnabled x2
  let x5 ← CI.ProfileInquiryReplyView.numEnabled x2
  let x6 ← CI.ProfileInquiryReplyView.enabled x2
  let x7 ← CI.ProfileInquiryReplyView.hasDisabled x2
  let x8 ← CI.ProfileInquiryReplyView.numDisabled x2
  let x9 ← CI.ProfileInquiryReplyView.disabled x2
  let x10 ← CI.makeProfileInquiryReplyN 19088743 214748364 [] 0 [(⟨126, 1, 2, 3, 4⟩ : CI.ProfileId), (⟨0, 33, 9, 11,
    77⟩ : CI.ProfileId)] 2 10
  return decide (18193 = (x3.toNat : Int)) && (!x4) && decide (0 = (x5.toNat : Int)) && decide (0 = (x6.length : Int))
    && (!x7) && decide (0 = (x8.toNat : Int)) && decide (0 = (x9.length : Int)) && decide (26 = (x10.data.length :
    Int))) = true := by decide +kernel

-- ci_profile_configuration,make_profile_inquiry_reply_from_carray: lines 509-519
example : holds (do
  let x1 ← CI.makeProfileInquiryReplyN 19088743 214748364 [] 0 [(⟨126, 1, 2, 3, 4⟩ : CI.ProfileId), (⟨0, 33, 9, 11,
    77⟩ : CI.ProfileId)] 2 10
  let x2 ← CI.ProfileInquiryReplyView.validate x1
  let x3 ← CI.asView CI.ProfileInquiryReplyView.validate x1
  let x4 ← CI.makeView x1
  let x5 ← UniversalSysex.View.deviceId x4
  let x6 ← UniversalSysex.View.type x4
  let x7 ← UniversalSysex.View.subtype x4
  let x8 ← CI.View.messageVersion x4
  let x9 ← CI.View.sourceMuid x4
  let x10 ← CI.View.destinationMuid x4
  return x2 && x3.isSome && decide (10 = (x5.toNat : Int)) && decide (32269 = (x6.toNat : Int)) && decide (33 =
    (x7.toNat : Int)) && decide (2 = (x8.toNat : Int)) && decide (19088743 = (x9.toNat : Int)) && decide (214748364 =
    (x10.toNat : Int))) = true := by decide +kernel

-- ci_profile_configuration,make_profile_inquiry_reply_from_carray: lines 521-550
example : holds (do
  let x1 ← CI.makeProfileInquiryReplyN 19088743 214748364 [] 0 [(⟨126, 1, 2, 3, 4⟩ : CI.ProfileId), (⟨0, 33, 9, 11,
    77⟩ : CI.ProfileId)] 2 10
  let x2 ← CI.makeView x1
  let x3 ← CI.ProfileInquiryReplyView.hasEnabled x2
  let x4 ← CI.ProfileInquiryReplyView.enabled x2
  let x5 ← CI.ProfileInquiryReplyView.hasDisabled x2
  let x6 ← CI.ProfileInquiryReplyView.numDisabled x2
  let x7 ← CI.ProfileInquiryReplyView.disabled x2
  let x8 ← CI.makeProfileInquiryReplyN 18036055 35931752 [(⟨65, 0, 0, 8, 0⟩ : CI.ProfileId), (⟨0, 33, 9, 11, 77⟩ :
    CI.ProfileId)] 2 [] 0 2
  return (!x3) && x4.isEmpty && x5 && decide (2 = (x6.toNat : Int)) && decide (2 = (x7.length : Int)) && decide (0 =
    (if List.take 5 [(⟨126, 1, 2, 3, 4⟩ : CI.ProfileId).b1, (⟨126, 1, 2, 3, 4⟩ : CI.ProfileId).b2, (⟨126, 1, 2, 3, 4⟩
    : CI.ProfileId).b3, (⟨126, 1, 2, 3, 4⟩ : CI.ProfileId).b4, (⟨126, 1, 2, 3, 4⟩ : CI.ProfileId).b5] = List.take 5
    [(x7.getD 0 default).b1, (x7.getD 0 default).b2, (x7.getD 0 default).b3, (x7.getD 0 default).b4, (x7.getD 0
    default).b5] then 0 else 1)) && decide (0 = (if List.take 5 [(⟨0, 33, 9, 11, 77⟩ : CI.ProfileId).b1, (⟨0, 33, 9,
    11, 77⟩ : CI.ProfileId).b2, (⟨0, 33, 9, 11, 77⟩ : CI.ProfileId).b3, (⟨0, 33, 9, 11, 77⟩ : CI.ProfileId).b4, (⟨0,
    33, 9, 11, 77⟩ : CI.ProfileId).b5] = List.take 5 [(x7.getD 1 default).b1, (x7.getD 1 default).b2, (x7.getD 1
    default).b3, (x7.getD 1 default).b4, (x7.getD 1 default).b5] then 0 else 1)) && decide (26 = (x8.data.length :
    Int))) = true := by decide +kernel

-- ci_profile_configuration,make_profile_inquiry_reply_from_carray: lines 552-562
example : holds (do
  let x1 ← CI.makeProfileInquiryReplyN 18036055 35931752 [(⟨65, 0, 0, 8, 0⟩ : CI.ProfileId), (⟨0, 33, 9, 11, 77⟩ :
    CI.ProfileId)] 2 [] 0 2
  let x2 ← CI.ProfileInquiryReplyView.validate x1
  let x3 ← CI.asView CI.ProfileInquiryReplyView.validate x1
  let x4 ← CI.makeView x1
  let x5 ← UniversalSysex.View.deviceId x4
  let x6 ← UniversalSysex.View.type x4
  let x7 ← UniversalSysex.View.subtype x4
  let x8 ← CI.View.messageVersion x4
  let x9 ← CI.View.sourceMuid x4
  let x10 ← CI.View.destinationMuid x4
  return x2 && x3.isSome && decide (2 = (x5.toNat : Int)) && decide (32269 = (x6.toNat : Int)) && decide (33 =
    (x7.toNat : Int)) && decide (2 = (x8.toNat : Int)) && decide (18036055 = (x9.toNat : Int)) && decide (35931752 =
    (x10.toNat : Int))) = true := by decide +kernel

-- ci_profile_configuration,make_profile_inquiry_reply_from_carray: lines 564-578
example : holds (do
  let x1 ← CI.makeProfileInquiryReplyN 18036055 35931752 [(⟨65, 0, 0, 8, 0⟩ : CI.ProfileId), (⟨0, 33, 9, 11, 77⟩ :
    CI.ProfileId)] 2 [] 0 2
  let x2 ← CI.makeView x1
  let x3 ← CI.ProfileInquiryReplyView.hasEnabled x2
  let x4 ← CI.ProfileInquiryReplyView.numEnabled x2
  let x5 ← CI.ProfileInquiryReplyView.enabled x2
  let x6 ← CI.ProfileInquiryReplyView.hasDisabled x2
  let x7 ← CI.ProfileInquiryReplyView.numDisabled x2
  let x8 ← CI.ProfileInquiryReplyView.disabled x2
  return x3 && decide (2 = (x4.toNat : Int)) && decide (2 = (x5.length : Int)) && decide (0 = (if List.take 5 [(⟨65,
    0, 0, 8, 0⟩ : CI.ProfileId).b1, (⟨65, 0, 0, 8, 0⟩ : CI.ProfileId).b2, (⟨65, 0, 0, 8, 0⟩ : CI.ProfileId).b3, (⟨65,
    0, 0, 8, 0⟩ : CI.ProfileId).b4, (⟨65, 0, 0, 8, 0⟩ : CI.ProfileId).b5] = List.take 5 [(x5.getD 0 default).b1,
    (x5.getD 0 default).b2, (x5.getD 0 default).b3, (x5.getD 0 default).b4, (x5.getD 0 default).b5] then 0 else 1)) &&
    decide (0 = (if List.take 5 [(⟨0, 33, 9, 11, 77⟩ : CI.ProfileId).b1, (⟨0, 33, 9, 11, 77⟩ : CI.ProfileId).b2, (⟨0,
    33, 9, 11, 77⟩ : CI.ProfileId).b3, (⟨0, 33, 9, 11, 77⟩ : CI.ProfileId).b4, (⟨0, 33, 9, 11, 77⟩ : CI.ProfileId).b5]
    = List.take 5 [(x5.getD 1 default).b1, (x5.getD 1 default).b2, (x5.getD 1 default).b3, (x5.getD 1 default).b4,
    (x5.getD 1 default).b5] then 0 else 1)) && (!x6) && decide (0 = (x7.toNat : Int)) && x8.isEmpty) = true := by decide +kernel

-- ci_profile_configuration,make_profile_inquiry_reply_from_carray: lines 596-607
example : holds (do
  let x1 ← CI.makeProfileInquiryReplyN 139867154 76706660 [(⟨0, 33, 9, 42, 7⟩ : CI.ProfileId)] 1 [(⟨126, 1, 2, 3, 4⟩ :
    CI.ProfileId), (⟨0, 33, 9, 11, 77⟩ : CI.ProfileId), (⟨126, 3, 2, 1, 0⟩ : CI.ProfileId)] 3 127
  let x2 ← CI.ProfileInquiryReplyView.validate x1
  let x3 ← CI.asView CI.ProfileInquiryReplyView.validate x1
  let x4 ← CI.makeView x1
  let x5 ← UniversalSysex.View.deviceId x4
  let x6 ← UniversalSysex.View.type x4
  let x7 ← UniversalSysex.View.subtype x4
  let x8 ← CI.View.messageVersion x4
  let x9 ← CI.View.sourceMuid x4
  return decide (36 = (x1.data.length : Int)) && x2 && x3.isSome && decide (127 = (x5.toNat : Int)) && decide (32269 =
    (x6.toNat : Int)) && decide (33 = (x7.toNat : Int)) && decide (2 = (x8.toNat : Int)) && decide (139867154 =
    (x9.toNat : Int))) = true := by decide +kernel

-- ci_profile_configuration,make_profile_inquiry_reply_from_carray: lines 608-625
example : holds (do
  let x1 ← CI.makeProfileInquiryReplyN 139867154 76706660 [(⟨0, 33, 9, 42, 7⟩ : CI.ProfileId)] 1 [(⟨126, 1, 2, 3, 4⟩ :
    CI.ProfileId), (⟨0, 33, 9, 11, 77⟩ : CI.ProfileId), (⟨126, 3, 2, 1, 0⟩ : CI.ProfileId)] 3 127
  let x2 ← CI.makeView x1
  let x3 ← CI.View.destinationMuid x2
  let x4 ← CI.ProfileInquiryReplyView.hasEnabled x2
  let x5 ← CI.ProfileInquiryReplyView.numEnabled x2
  let x6 ← CI.ProfileInquiryReplyView.enabled x2
  let x7 ← CI.ProfileInquiryReplyView.hasDisabled x2
  let x8 ← CI.ProfileInquiryReplyView.numDisabled x2
  let x9 ← CI.ProfileInquiryReplyView.disabled x2
  return decide (76706660 = (x3.toNat : Int)) && x4 && decide (1 = (x5.toNat : Int)) && decide (1 = (x6.length : Int))
    && decide (0 = (if List.take 5 [(⟨0, 33, 9, 42, 7⟩ : CI.ProfileId).b1, (⟨0, 33, 9, 42, 7⟩ : CI.ProfileId).b2, (⟨0,
    33, 9, 42, 7⟩ : CI.ProfileId).b3, (⟨0, 33, 9, 42, 7⟩ : CI.ProfileId).b4, (⟨0, 33, 9, 42, 7⟩ : CI.ProfileId).b5] =
    List.take 5 [(x6.getD 0 default).b1, (x6.getD 0 default).b2, (x6.getD 0 default).b3, (x6.getD 0 default).b4,
    (x6.getD 0 default).b5] then 0 else 1)) && x7 && decide (3 = (x8.toNat : Int)) && decide (3 = (x9.length : Int))) = true := by decide +kernel

-- ci_profile_configuration,make_profile_inquiry_reply_from_carray: line 630
example : holds (do
  let x1 ← CI.makeProfileInquiryReplyN 139867154 76706660 [(⟨0, 33, 9, 42, 7⟩ : CI.ProfileId)] 1 [(⟨126, 1, 2, 3, 4⟩ :
    CI.ProfileId), (⟨0, 33, 9, 11, 77⟩ : CI.ProfileId), (⟨126, 3, 2, 1, 0⟩ : CI.ProfileId)] 3 127
  let x2 ← CI.makeView x1
  let x3 ← CI.ProfileInquiryReplyView.disabled x2
  return decide (0 = (if List.take 5 [(⟨126, 1, 2, 3, 4⟩ : CI.ProfileId).b1, (⟨126, 1, 2, 3, 4⟩ : CI.ProfileId).b2,
    (⟨126, 1, 2, 3, 4⟩ : CI.ProfileId).b3, (⟨126, 1, 2, 3, 4⟩ : CI.ProfileId).b4, (⟨126, 1, 2, 3, 4⟩ :
    CI.ProfileId).b5] = List.take 5 [(x3.getD 0 default).b1, (x3.getD 0 default).b2, (x3.getD 0 default).b3, (x3.getD
    0 default).b4, (x3.getD 0 default).b5] then 0 else 1)) && decide (0 = (if List.take 5 [(⟨0, 33, 9, 11, 77⟩ :
    CI.ProfileId).b1, (⟨0, 33, 9, 11, 77⟩ : CI.ProfileId).b2, (⟨0, 33, 9, 11, 77⟩ : CI.ProfileId).b3, (⟨0, 33, 9, 11,
    77⟩ : CI.ProfileId).b4, (⟨0, 33, 9, 11, 77⟩ : CI.ProfileId).b5] = List.take 5 [(x3.getD 1 default).b1, (x3.getD 1
    default).b2, (x3.getD 1 default).b3, (x3.getD 1 default).b4, (x3.getD 1 default).b5] then 0 else 1)) && decide (0
    = (if List.take 5 [(⟨126, 3, 2, 1, 0⟩ : CI.ProfileId).b1, (⟨126, 3, 2, 1, 0⟩ : CI.ProfileId).b2, (⟨126, 3, 2, 1,
    0⟩ : CI.ProfileId).b3, (⟨126, 3, 2, 1, 0⟩ : CI.ProfileId).b4, (⟨126, 3, 2, 1, 0⟩ : CI.ProfileId).b5] = List.take 5
    [(x3.getD 2 default).b1, (x3.getD 2 default).b2, (x3.getD 2 default).b3, (x3.getD 2 default).b4, (x3.getD 2
    default).b5] then 0 else 1))) = true := by decide +kernel

-- ci_profile_configuration,make_profile_inquiry_reply_from_vector: lines 701-712
example : holds (do
  let x1 ← CI.makeProfileInquiryReply 258364740 125269879 [] [] 8
  let x2 ← CI.ProfileInquiryReplyView.validate x1
  let x3 ← CI.asView CI.ProfileInquiryReplyView.validate x1
  let x4 ← CI.makeView x1
  let x5 ← UniversalSysex.View.deviceId x4
  let x6 ← UniversalSysex.View.type x4
  let x7 ← UniversalSysex.View.subtype x4
  let x8 ← CI.View.messageVersion x4
  let x9 ← CI.View.sourceMuid x4
  return decide (16 = (x1.data.length : Int)) && x2 && x3.isSome && decide (8 = (x5.toNat : Int)) && decide (32269 =
    (x6.toNat : Int)) && decide (33 = (x7.toNat : Int)) && decide (2 = (x8.toNat : Int)) && decide (258364740 =
    (x9.toNat : Int))) = true := by decide +kernel

-- ci_profile_configuration,make_profile_inquiry_reply_from_vector: lines 713-736
example : holds (do
  let x1 ← CI.makeProfileInquiryReply 258364740 125269879 [] [] 8
  let x2 ← CI.makeView x1
  let x3 ← CI.View.destinationMuid x2
  let x4 ← CI.ProfileInquiryReplyView.hasEnabled x2
  let x5 ← CI.ProfileInquiryReplyView.numEnabled x2
  let x6 ← CI.ProfileInquiryReplyView.enabled x2
  let x7 ← CI.ProfileInquiryReplyView.hasDisabled x2
  let x8 ← CI.ProfileInquiryReplyView.numDisabled x2
  let x9 ← CI.ProfileInquiryReplyView.disabled x2
  let x10 ← CI.makeProfileInquiryReply 36984440 5 [] [(⟨126, 1, 2, 3, 4⟩ : CI.ProfileId), (⟨0, 33, 9, 11, 77⟩ :
    CI.ProfileId)] 10
  return decide (125269879 = (x3.toNat : Int)) && (!x4) && decide (0 = (x5.toNat : Int)) && decide (0 = (x6.length :
    Int)) && (!x7) && decide (0 = (x8.toNat : Int)) && decide (0 = (x9.length : Int)) && decide (26 = (x10.data.length
    : Int))) = true := by decide +kernel

-- ci_profile_configuration,make_profile_inquiry_reply_from_vector: lines 738-748
example : holds (do
  let x1 ← CI.makeProfileInquiryReply 36984440 5 [] [(⟨126, 1, 2, 3, 4⟩ : CI.ProfileId), (⟨0, 33, 9, 11, 77⟩ :
    CI.ProfileId)] 10
  let x2 ← CI.ProfileInquiryReplyView.validate x1
  let x3 ← CI.asView CI.ProfileInquiryReplyView.validate x1
  let x4 ← CI.makeView x1
  let x5 ← UniversalSysex.View.deviceId x4
  let x6 ← UniversalSysex.View.type x4
  let x7 ← UniversalSysex.View.subtype x4
  let x8 ← CI.View.messageVersion x4
  let x9 ← CI.View.sourceMuid x4
  let x10 ← CI.View.destinationMuid x4
  return x2 && x3.isSome && decide (10 = (x5.toNat : Int)) && decide (32269 = (x6.toNat : Int)) && decide (33 =
    (x7.toNat : Int)) && decide (2 = (x8.toNat : Int)) && decide (36984440 = (x9.toNat : Int)) && decide (5 =
    (x10.toNat : Int))) = true := by decide +kernel

-- ci_profile_configuration,make_profile_inquiry_reply_from_vector: lines 750-778
example : holds (do
  let x1 ← CI.makeProfileInquiryReply 36984440 5 [] [(⟨126, 1, 2, 3, 4⟩ : CI.ProfileId), (⟨0, 33, 9, 11, 77⟩ :
    CI.ProfileId)] 10
  let x2 ← CI.makeView x1
  let x3 ← CI.ProfileInquiryReplyView.hasEnabled x2
  let x4 ← CI.ProfileInquiryReplyView.enabled x2
  let x5 ← CI.ProfileInquiryReplyView.hasDisabled x2
  let x6 ← CI.ProfileInquiryReplyView.numDisabled x2
  let x7 ← CI.ProfileInquiryReplyView.disabled x2
  let x8 ← CI.makeProfileInquiryReply 204690807 181062346 [(⟨65, 0, 0, 8, 1⟩ : CI.ProfileId), (⟨0, 33, 9, 11, 77⟩ :
    CI.ProfileId)] [] 2
  return (!x3) && x4.isEmpty && x5 && decide (2 = (x6.toNat : Int)) && decide (2 = (x7.length : Int)) && decide (0 =
    (if List.take 5 [(⟨126, 1, 2, 3, 4⟩ : CI.ProfileId).b1, (⟨126, 1, 2, 3, 4⟩ : CI.ProfileId).b2, (⟨126, 1, 2, 3, 4⟩
    : CI.ProfileId).b3, (⟨126, 1, 2, 3, 4⟩ : CI.ProfileId).b4, (⟨126, 1, 2, 3, 4⟩ : CI.ProfileId).b5] = List.take 5
    [(x7.getD 0 default).b1, (x7.getD 0 default).b2, (x7.getD 0 default).b3, (x7.getD 0 default).b4, (x7.getD 0
    default).b5] then 0 else 1)) && decide (0 = (if List.take 5 [(⟨0, 33, 9, 11, 77⟩ : CI.ProfileId).b1, (⟨0, 33, 9,
    11, 77⟩ : CI.ProfileId).b2, (⟨0, 33, 9, 11, 77⟩ : CI.ProfileId).b3, (⟨0, 33, 9, 11, 77⟩ : CI.ProfileId).b4, (⟨0,
    33, 9, 11, 77⟩ : CI.ProfileId).b5] = List.take 5 [(x7.getD 1 default).b1, (x7.getD 1 default).b2, (x7.getD 1
    default).b3, (x7.getD 1 default).b4, (x7.getD 1 default).b5] then 0 else 1)) && decide (26 = (x8.data.length :
    Int))) = true := by decide +kernel

-- ci_profile_configuration,make_profile_inquiry_reply_from_vector: lines 780-790
example : holds (do
  let x1 ← CI.makeProfileInquiryReply 204690807 181062346 [(⟨65, 0, 0, 8, 1⟩ : CI.ProfileId), (⟨0, 33, 9, 11, 77⟩ :
    CI.ProfileId)] [] 2
  let x2 ← CI.ProfileInquiryReplyView.validate x1
  let x3 ← CI.asView CI.ProfileInquiryReplyView.validate x1
  let x4 ← CI.makeView x1
  let x5 ← UniversalSysex.View.deviceId x4
  let x6 ← UniversalSysex.View.type x4
  let x7 ← UniversalSysex.View.subtype x4
  let x8 ← CI.View.messageVersion x4
  let x9 ← CI.View.sourceMuid x4
  let x10 ← CI.View.destinationMuid x4
  return x2 && x3.isSome && decide (2 = (x5.toNat : Int)) && decide (32269 = (x6.toNat : Int)) && decide (33 =
    (x7.toNat : Int)) && decide (2 = (x8.toNat : Int)) && decide (204690807 = (x9.toNat : Int)) && decide (181062346 =
    (x10.toNat : Int))) = true := by decide +kernel

-- ci_profile_configuration,make_profile_inquiry_reply_from_vector: lines 792-806
example : holds (do
  let x1 ← CI.makeProfileInquiryReply 204690807 181062346 [(⟨65, 0, 0, 8, 1⟩ : CI.ProfileId), (⟨0, 33, 9, 11, 77⟩ :
    CI.ProfileId)] [] 2
  let x2 ← CI.makeView x1
  let x3 ← CI.ProfileInquiryReplyView.hasEnabled x2
  let x4 ← CI.ProfileInquiryReplyView.numEnabled x2
  let x5 ← CI.ProfileInquiryReplyView.enabled x2
  let x6 ← CI.ProfileInquiryReplyView.hasDisabled x2
  let x7 ← CI.ProfileInquiryReplyView.numDisabled x2
  let x8 ← CI.ProfileInquiryReplyView.disabled x2
  return x3 && decide (2 = (x4.toNat : Int)) && decide (2 = (x5.length : Int)) && decide (0 = (if List.take 5 [(⟨65,
    0, 0, 8, 1⟩ : CI.ProfileId).b1, (⟨65, 0, 0, 8, 1⟩ : CI.ProfileId).b2, (⟨65, 0, 0, 8, 1⟩ : CI.ProfileId).b3, (⟨65,
    0, 0, 8, 1⟩ : CI.ProfileId).b4, (⟨65, 0, 0, 8, 1⟩ : CI.ProfileId).b5] = List.take 5 [(x5.getD 0 default).b1,
    (x5.getD 0 default).b2, (x5.getD 0 default).b3, (x5.getD 0 default).b4, (x5.getD 0 default).b5] then 0 else 1)) &&
    decide (0 = (if List.take 5 [(⟨0, 33, 9, 11, 77⟩ : CI.ProfileId).b1, (⟨0, 33, 9, 11, 77⟩ : CI.ProfileId).b2, (⟨0,
    33, 9, 11, 77⟩ : CI.ProfileId).b3, (⟨0, 33, 9, 11, 77⟩ : CI.ProfileId).b4, (⟨0, 33, 9, 11, 77⟩ : CI.ProfileId).b5]
    = List.take 5 [(x5.getD 1 default).b1, (x5.getD 1 default).b2, (x5.getD 1 default).b3, (x5.getD 1 default).b4,
    (x5.getD 1 default).b5] then 0 else 1)) && (!x6) && decide (0 = (x7.toNat : Int)) && x8.isEmpty) = true := by decide +kernel

-- ci_profile_configuration,make_profile_inquiry_reply_from_vector: lines 821-832
example : holds (do
  let x1 ← CI.makeProfileInquiryReply 139867154 26313074 [(⟨0, 33, 9, 42, 7⟩ : CI.ProfileId)] [(⟨126, 1, 2, 3, 4⟩ :
    CI.ProfileId), (⟨0, 33, 9, 11, 77⟩ : CI.ProfileId), (⟨126, 4, 3, 2, 1⟩ : CI.ProfileId)] 127
  let x2 ← CI.ProfileInquiryReplyView.validate x1
  let x3 ← CI.asView CI.ProfileInquiryReplyView.validate x1
  let x4 ← CI.makeView x1
  let x5 ← UniversalSysex.View.deviceId x4
  let x6 ← UniversalSysex.View.type x4
  let x7 ← UniversalSysex.View.subtype x4
  let x8 ← CI.View.messageVersion x4
  let x9 ← CI.View.sourceMuid x4
  return decide (36 = (x1.data.length : Int)) && x2 && x3.isSome && decide (127 = (x5.toNat : Int)) && decide (32269 =
    (x6.toNat : Int)) && decide (33 = (x7.toNat : Int)) && decide (2 = (x8.toNat : Int)) && decide (139867154 =
    (x9.toNat : Int))) = true := by decide +kernel

-- ci_profile_configuration,make_profile_inquiry_reply_from_vector: lines 833-850
example : holds (do
  let x1 ← CI.makeProfileInquiryReply 139867154 26313074 [(⟨0, 33, 9, 42, 7⟩ : CI.ProfileId)] [(⟨126, 1, 2, 3, 4⟩ :
    CI.ProfileId), (⟨0, 33, 9, 11, 77⟩ : CI.ProfileId), (⟨126, 4, 3, 2, 1⟩ : CI.ProfileId)] 127
  let x2 ← CI.makeView x1
  let x3 ← CI.View.destinationMuid x2
  let x4 ← CI.ProfileInquiryReplyView.hasEnabled x2
  let x5 ← CI.ProfileInquiryReplyView.numEnabled x2
  let x6 ← CI.ProfileInquiryReplyView.enabled x2
  let x7 ← CI.ProfileInquiryReplyView.hasDisabled x2
  let x8 ← CI.ProfileInquiryReplyView.numDisabled x2
  let x9 ← CI.ProfileInquiryReplyView.disabled x2
  return decide (26313074 = (x3.toNat : Int)) && x4 && decide (1 = (x5.toNat : Int)) && decide (1 = (x6.length : Int))
    && decide (0 = (if List.take 5 [(⟨0, 33, 9, 42, 7⟩ : CI.ProfileId).b1, (⟨0, 33, 9, 42, 7⟩ : CI.ProfileId).b2, (⟨0,
    33, 9, 42, 7⟩ : CI.ProfileId).b3, (⟨0, 33, 9, 42, 7⟩ : CI.ProfileId).b4, (⟨0, 33, 9, 42, 7⟩ : CI.ProfileId).b5] =
    List.take 5 [(x6.getD 0 default).b1, (x6.getD 0 default).b2, (x6.getD 0 default).b3, (x6.getD 0 default).b4,
    (x6.getD 0 default).b5] then 0 else 1)) && x7 && decide (3 = (x8.toNat : Int)) && decide (3 = (x9.length : Int))) = true := by decide +kernel

-- ci_profile_configuration,make_profile_inquiry_reply_from_vector: line 855
example : holds (do
  let x1 ← CI.makeProfileInquiryReply 139867154 26313074 [(⟨0, 33, 9, 42, 7⟩ : CI.ProfileId)] [(⟨126, 1, 2, 3, 4⟩ :
    CI.ProfileId), (⟨0, 33, 9, 11, 77⟩ : CI.ProfileId), (⟨126, 4, 3, 2, 1⟩ : CI.ProfileId)] 127
  let x2 ← CI.makeView x1
  let x3 ← CI.ProfileInquiryReplyView.disabled x2
  return decide (0 = (if List.take 5 [(⟨126, 1, 2, 3, 4⟩ : CI.ProfileId).b1, (⟨126, 1, 2, 3, 4⟩ : CI.ProfileId).b2,
    (⟨126, 1, 2, 3, 4⟩ : CI.ProfileId).b3, (⟨126, 1, 2, 3, 4⟩ : CI.ProfileId).b4, (⟨126, 1, 2, 3, 4⟩ :
    CI.ProfileId).b5] = List.take 5 [(x3.getD 0 default).b1, (x3.getD 0 default).b2, (x3.getD 0 default).b3, (x3.getD
    0 default).b4, (x3.getD 0 default).b5] then 0 else 1)) && decide (0 = (if List.take 5 [(⟨0, 33, 9, 11, 77⟩ :
    CI.ProfileId).b1, (⟨0, 33, 9, 11, 77⟩ : CI.ProfileId).b2, (⟨0, 33, 9, 11, 77⟩ : CI.ProfileId).b3, (⟨0, 33, 9, 11,
    77⟩ : CI.ProfileId).b4, (⟨0, 33, 9, 11, 77⟩ : CI.ProfileId).b5] = List.take 5 [(x3.getD 1 default).b1, (x3.getD 1
    default).b2, (x3.getD 1 default).b3, (x3.getD 1 default).b4, (x3.getD 1 default).b5] then 0 else 1)) && decide (0
    = (if List.take 5 [(⟨126, 4, 3, 2, 1⟩ : CI.ProfileId).b1, (⟨126, 4, 3, 2, 1⟩ : CI.ProfileId).b2, (⟨126, 4, 3, 2,
    1⟩ : CI.ProfileId).b3, (⟨126, 4, 3, 2, 1⟩ : CI.ProfileId).b4, (⟨126, 4, 3, 2, 1⟩ : CI.ProfileId).b5] = List.take 5
    [(x3.getD 2 default).b1, (x3.getD 2 default).b2, (x3.getD 2 default).b3, (x3.getD 2 default).b4, (x3.getD 2
    default).b5] then 0 else 1))) = true := by decide +kernel

-- ci_profile_configuration,profile_id_view: lines 875-886
example : holds (do
  let x1 ← CI.makeProfileOn 19088744 36984457 (⟨1, 2, 3, 4, 5⟩ : CI.ProfileId) (CI.channelProfile 13 1)
  let x2 ← CI.ProfileIdView.validate x1
  let x3 ← CI.asView CI.ProfileIdView.validate x1
  let x4 ← CI.makeView x1
  let x5 ← UniversalSysex.View.deviceId x4
  let x6 ← UniversalSysex.View.type x4
  let x7 ← UniversalSysex.View.subtype x4
  let x8 ← CI.View.messageVersion x4
  let x9 ← CI.View.sourceMuid x4
  return decide ((x1.data.length : Int) ≥ 17) && x2 && x3.isSome && decide (13 = (x5.toNat : Int)) && decide (32269 =
    (x6.toNat : Int)) && decide (34 = (x7.toNat : Int)) && decide (2 = (x8.toNat : Int)) && decide (19088744 =
    (x9.toNat : Int))) = true := by decide +kernel

-- ci_profile_configuration,profile_id_view: lines 887-909
example : holds (do
  let x1 ← CI.makeProfileOn 19088744 36984457 (⟨1, 2, 3, 4, 5⟩ : CI.ProfileId) (CI.channelProfile 13 1)
  let x2 ← CI.makeView x1
  let x3 ← CI.View.destinationMuid x2
  let x4 ← CI.ProfileIdView.profile x2
  let x5 ← CI.makeProfileDisabled 126182162 36984457 (⟨126, 68, 51, 34, 17⟩ : CI.ProfileId) CI.functionBlockProfile
  let x6 ← CI.ProfileIdView.validate x5
  let x7 ← CI.asView CI.ProfileIdView.validate x5
  let x8 ← CI.makeView x5
  let x9 ← UniversalSysex.View.deviceId x8
  let x10 ← UniversalSysex.View.type x8
  let x11 ← UniversalSysex.View.subtype x8
  return decide (36984457 = (x3.toNat : Int)) && ((⟨1, 2, 3, 4, 5⟩ : CI.ProfileId).eqv x4) && decide ((x5.data.length
    : Int) ≥ 17) && x6 && x7.isSome && decide (127 = (x9.toNat : Int)) && decide (32269 = (x10.toNat : Int)) && decide
    (37 = (x11.toNat : Int))) = true := by decide +kernel

-- ci_profile_configuration,profile_id_view: lines 910-931
example : holds (do
  let x1 ← CI.makeProfileDisabled 126182162 36984457 (⟨126, 68, 51, 34, 17⟩ : CI.ProfileId) CI.functionBlockProfile
  let x2 ← CI.makeView x1
  let x3 ← CI.View.messageVersion x2
  let x4 ← CI.View.sourceMuid x2
  let x5 ← CI.View.destinationMuid x2
  let x6 ← CI.ProfileIdView.profile x2
  let x7 ← CI.makeProfileAdded 126235666 36984457 (⟨126, 68, 51, 34, 17⟩ : CI.ProfileId) 127
  let x8 ← CI.ProfileIdView.validate x7
  let x9 ← CI.asView CI.ProfileIdView.validate x7
  let x10 ← CI.makeView x7
  let x11 ← UniversalSysex.View.deviceId x10
  return decide (2 = (x3.toNat : Int)) && decide (126182162 = (x4.toNat : Int)) && decide (36984457 = (x5.toNat :
    Int)) && ((⟨126, 68, 51, 34, 17⟩ : CI.ProfileId).eqv x6) && decide ((x7.data.length : Int) ≥ 17) && x8 &&
    x9.isSome && decide (127 = (x11.toNat : Int))) = true := by decide +kernel

-- ci_profile_configuration,profile_id_view: lines 932-950
example : holds (do
  let x1 ← CI.makeProfileAdded 126235666 36984457 (⟨126, 68, 51, 34, 17⟩ : CI.ProfileId) 127
  let x2 ← CI.makeView x1
  let x3 ← UniversalSysex.View.type x2
  let x4 ← UniversalSysex.View.subtype x2
  let x5 ← CI.View.messageVersion x2
  let x6 ← CI.View.sourceMuid x2
  let x7 ← CI.View.destinationMuid x2
  let x8 ← CI.ProfileIdView.profile x2
  let x9 := (⟨8257536, [127, 8, 38, 2, 120, 86, 52, 18, 119, 85, 51, 17, 68, 85, 102, 18, 52]⟩ : Sysex)
  let x10 ← CI.ProfileIdView.validate x9
  let x11 ← CI.asView CI.ProfileIdView.validate x9
  return decide (32269 = (x3.toNat : Int)) && decide (38 = (x4.toNat : Int)) && decide (2 = (x5.toNat : Int)) &&
    decide (126235666 = (x6.toNat : Int)) && decide (36984457 = (x7.toNat : Int)) && ((⟨126, 68, 51, 34, 17⟩ :
    CI.ProfileId).eqv x8) && (!x10) && (!x11.isSome)) = true := by decide +kernel

-- ci_profile_configuration,profile_id_view: lines 960-996
example : holds (do
  let x1 := (⟨8257536, [127, 13, 40, 2, 120, 86, 52, 18, 119, 85, 51, 17, 68, 85, 102, 18, 52]⟩ : Sysex)
  let x2 ← CI.ProfileIdView.validate x1
  let x3 ← CI.asView CI.ProfileIdView.validate x1
  let x4 := (⟨8257536, [127, 13, 38, 2, 120, 86, 52, 18, 119, 85, 51]⟩ : Sysex)
  let x5 ← CI.ProfileIdView.validate x4
  let x6 ← CI.asView CI.ProfileIdView.validate x4
  let x7 := (⟨8257536, [127, 13, 38, 2, 120, 86, 52, 18, 119, 85, 51, 17, 68, 85, 102, 18, 52, 86]⟩ : Sysex)
  let x8 ← CI.ProfileIdView.validate x7
  let x9 ← CI.asView CI.ProfileIdView.validate x7
  return (!x2) && (!x3.isSome) && (!x5) && (!x6.isSome) && x8 && x9.isSome) = true := by decide +kernel

-- ci_profile_configuration,profile_destination_view: lines 1012-1023
example : holds (do
  let x1 ← CI.makeProfileOn 19088744 36984457 (⟨1, 2, 3, 4, 5⟩ : CI.ProfileId) (CI.channelProfile 13 1)
  let x2 ← CI.ProfileDestinationView.validate x1
  let x3 ← CI.asView CI.ProfileDestinationView.validate x1
  let x4 ← CI.makeView x1
  let x5 ← UniversalSysex.View.deviceId x4
  let x6 ← UniversalSysex.View.type x4
  let x7 ← UniversalSysex.View.subtype x4
  let x8 ← CI.View.messageVersion x4
  let x9 ← CI.View.sourceMuid x4
  return decide ((x1.data.length : Int) ≥ 19) && x2 && x3.isSome && decide (13 = (x5.toNat : Int)) && decide (32269 =
    (x6.toNat : Int)) && decide (34 = (x7.toNat : Int)) && decide (2 = (x8.toNat : Int)) && decide (19088744 =
    (x9.toNat : Int))) = true := by decide +kernel

-- ci_profile_configuration,profile_destination_view: lines 1024-1046
example : holds (do
  let x1 ← CI.makeProfileOn 19088744 36984457 (⟨1, 2, 3, 4, 5⟩ : CI.ProfileId) (CI.channelProfile 13 1)
  let x2 ← CI.makeView x1
  let x3 ← CI.View.destinationMuid x2
  let x4 ← CI.ProfileIdView.profile x2
  let x5 ← CI.ProfileDestinationView.numChannels x2
  let x6 ← CI.ProfileDestinationView.params x2
  let x7 ← CI.makeProfileDisabled 126182162 36984457 (⟨126, 68, 51, 34, 17⟩ : CI.ProfileId) CI.functionBlockProfile
  let x8 ← CI.ProfileDestinationView.validate x7
  let x9 ← CI.asView CI.ProfileDestinationView.validate x7
  let x10 ← CI.makeView x7
  let x11 ← UniversalSysex.View.deviceId x10
  return decide (36984457 = (x3.toNat : Int)) && ((⟨1, 2, 3, 4, 5⟩ : CI.ProfileId).eqv x4) && decide (1 = (x5.toNat :
    Int)) && (({ scope := 13, numChannels := 1 } : CI.ProfileDestination).eqv x6) && decide ((x7.data.length : Int) ≥
    19) && x8 && x9.isSome && decide (127 = (x11.toNat : Int))) = true := by decide +kernel

-- ci_profile_configuration,profile_destination_view: lines 1047-1054
example : holds (do
  let x1 ← CI.makeProfileDisabled 126182162 36984457 (⟨126, 68, 51, 34, 17⟩ : CI.ProfileId) CI.functionBlockProfile
  let x2 ← CI.makeView x1
  let x3 ← UniversalSysex.View.type x2
  let x4 ← UniversalSysex.View.subtype x2
  let x5 ← CI.View.messageVersion x2
  let x6 ← CI.View.sourceMuid x2
  let x7 ← CI.View.destinationMuid x2
  let x8 ← CI.ProfileIdView.profile x2
  let x9 ← CI.ProfileDestinationView.numChannels x2
  let x10 ← CI.ProfileDestinationView.params x2
  return decide (32269 = (x3.toNat : Int)) && decide (37 = (x4.toNat : Int)) && decide (2 = (x5.toNat : Int)) &&
    decide (126182162 = (x6.toNat : Int)) && decide (36984457 = (x7.toNat : Int)) && ((⟨126, 68, 51, 34, 17⟩ :
    CI.ProfileId).eqv x8) && decide (0 = (x9.toNat : Int)) && (({ scope := 127, numChannels := 0 } :
    CI.ProfileDestination).eqv x10)) = true := by decide +kernel

-- ci_profile_configuration,profile_destination_view: lines 1066-1130
example : holds (do
  let x1 ← CI.makeProfileAdded 126235666 36984457 (⟨126, 68, 51, 34, 17⟩ : CI.ProfileId) 127
  let x2 ← CI.ProfileDestinationView.validate x1
  let x3 ← CI.asView CI.ProfileDestinationView.validate x1
  let x4 := (⟨8257536, [127, 8, 38, 2, 120, 86, 52, 18, 119, 85, 51, 17, 68, 85, 102, 18, 52, 1, 0]⟩ : Sysex)
  let x5 ← CI.ProfileDestinationView.validate x4
  let x6 ← CI.asView CI.ProfileDestinationView.validate x4
  let x7 := (⟨8257536, [127, 13, 38, 2, 120, 86, 52, 18, 119, 85, 51, 17, 68, 85, 102, 18, 52, 1, 0]⟩ : Sysex)
  let x8 ← CI.ProfileDestinationView.validate x7
  let x9 ← CI.asView CI.ProfileDestinationView.validate x7
  let x10 := (⟨8257536, [127, 13, 35, 2, 120, 86, 52, 18, 119, 85, 51]⟩ : Sysex)
  let x11 ← CI.ProfileDestinationView.validate x10
  let x12 ← CI.asView CI.ProfileDestinationView.validate x10
  return (!x2) && (!x3.isSome) && (!x5) && (!x6.isSome) && (!x8) && (!x9.isSome) && (!x11) && (!x12.isSome)) = true := by decide +kernel

-- ci_profile_configuration,profile_destination_view: lines 1139-1140
example : holds (do
  let x1 := (⟨8257536, [127, 13, 36, 2, 120, 86, 52, 18, 119, 85, 51, 17, 68, 85, 102, 18, 52, 1, 0, 17, 34]⟩ : Sysex)
  let x2 ← CI.ProfileDestinationView.validate x1
  let x3 ← CI.asView CI.ProfileDestinationView.validate x1
  return x2 && x3.isSome) = true := by decide +kernel

-- ci_profile_configuration,set_profile_on: lines 1156-1167
example : holds (do
  let x1 ← CI.makeProfileOn 19088743 0 (⟨1, 2, 3, 4, 5⟩ : CI.ProfileId) (CI.channelProfile 6 1)
  let x2 ← CI.ProfileDestinationView.validate x1
  let x3 ← CI.asView CI.ProfileDestinationView.validate x1
  let x4 ← CI.makeView x1
  let x5 ← UniversalSysex.View.deviceId x4
  let x6 ← UniversalSysex.View.type x4
  let x7 ← UniversalSysex.View.subtype x4
  let x8 ← CI.View.messageVersion x4
  let x9 ← CI.View.sourceMuid x4
  return decide (19 = (x1.data.length : Int)) && x2 && x3.isSome && decide (6 = (x5.toNat : Int)) && decide (32269 =
    (x6.toNat : Int)) && decide (34 = (x7.toNat : Int)) && decide (2 = (x8.toNat : Int)) && decide (19088743 =
    (x9.toNat : Int))) = true := by decide +kernel

-- ci_profile_configuration,set_profile_on: lines 1168-1189
example : holds (do
  let x1 ← CI.makeProfileOn 19088743 0 (⟨1, 2, 3, 4, 5⟩ : CI.ProfileId) (CI.channelProfile 6 1)
  let x2 ← CI.makeView x1
  let x3 ← CI.View.destinationMuid x2
  let x4 ← CI.ProfileIdView.profile x2
  let x5 ← CI.ProfileDestinationView.numChannels x2
  let x6 ← CI.ProfileDestinationView.params x2
  let x7 ← CI.makeProfileOn 139867154 33554431 (⟨126, 68, 51, 34, 17⟩ : CI.ProfileId) CI.functionBlockProfile
  let x8 ← CI.ProfileDestinationView.validate x7
  let x9 ← CI.asView CI.ProfileDestinationView.validate x7
  let x10 ← CI.makeView x7
  let x11 ← UniversalSysex.View.deviceId x10
  return decide (0 = (x3.toNat : Int)) && ((⟨1, 2, 3, 4, 5⟩ : CI.ProfileId).eqv x4) && decide (1 = (x5.toNat : Int))
    && (({ scope := 6, numChannels := 1 } : CI.ProfileDestination).eqv x6) && decide (19 = (x7.data.length : Int)) &&
    x8 && x9.isSome && decide (127 = (x11.toNat : Int))) = true := by decide +kernel

-- ci_profile_configuration,set_profile_on: lines 1190-1197
example : holds (do
  let x1 ← CI.makeProfileOn 139867154 33554431 (⟨126, 68, 51, 34, 17⟩ : CI.ProfileId) CI.functionBlockProfile
  let x2 ← CI.makeView x1
  let x3 ← UniversalSysex.View.type x2
  let x4 ← UniversalSysex.View.subtype x2
  let x5 ← CI.View.messageVersion x2
  let x6 ← CI.View.sourceMuid x2
  let x7 ← CI.View.destinationMuid x2
  let x8 ← CI.ProfileIdView.profile x2
  let x9 ← CI.ProfileDestinationView.numChannels x2
  let x10 ← CI.ProfileDestinationView.params x2
  return decide (32269 = (x3.toNat : Int)) && decide (34 = (x4.toNat : Int)) && decide (2 = (x5.toNat : Int)) &&
    decide (139867154 = (x6.toNat : Int)) && decide (33554431 = (x7.toNat : Int)) && ((⟨126, 68, 51, 34, 17⟩ :
    CI.ProfileId).eqv x8) && decide (0 = (x9.toNat : Int)) && (({ scope := 127, numChannels := 0 } :
    CI.ProfileDestination).eqv x10)) = true := by decide +kernel

-- ci_profile_configuration,set_profile_on: lines 1208-1209
example : holds (do
  let x1 ← CI.makeProfileOn 139867154 19088743 (⟨126, 68, 51, 34, 17⟩ : CI.ProfileId) CI.groupProfile
  let x2 := { x1 with data := x1.data.set 2 49 }
  let x3 ← CI.ProfileDestinationView.validate x2
  let x4 ← CI.asView CI.ProfileDestinationView.validate x2
  return (!x3) && (!x4.isSome)) = true := by decide +kernel

-- ci_profile_configuration,set_profile_off: lines 1225-1236
example : holds (do
  let x1 ← CI.makeProfileOff 19088743 4711 (⟨1, 2, 3, 4, 5⟩ : CI.ProfileId) (CI.channelProfile 5 5)
  let x2 ← CI.ProfileDestinationView.validate x1
  let x3 ← CI.asView CI.ProfileDestinationView.validate x1
  let x4 ← CI.makeView x1
  let x5 ← UniversalSysex.View.deviceId x4
  let x6 ← UniversalSysex.View.type x4
  let x7 ← UniversalSysex.View.subtype x4
  let x8 ← CI.View.messageVersion x4
  let x9 ← CI.View.sourceMuid x4
  return decide (19 = (x1.data.length : Int)) && x2 && x3.isSome && decide (5 = (x5.toNat : Int)) && decide (32269 =
    (x6.toNat : Int)) && decide (35 = (x7.toNat : Int)) && decide (2 = (x8.toNat : Int)) && decide (19088743 =
    (x9.toNat : Int))) = true := by decide +kernel

-- ci_profile_configuration,set_profile_off: lines 1237-1258
example : holds (do
  let x1 ← CI.makeProfileOff 19088743 4711 (⟨1, 2, 3, 4, 5⟩ : CI.ProfileId) (CI.channelProfile 5 5)
  let x2 ← CI.makeView x1
  let x3 ← CI.View.destinationMuid x2
  let x4 ← CI.ProfileIdView.profile x2
  let x5 ← CI.ProfileDestinationView.numChannels x2
  let x6 ← CI.ProfileDestinationView.params x2
  let x7 ← CI.makeProfileOff 123089938 42 (⟨126, 68, 51, 34, 17⟩ : CI.ProfileId) CI.groupProfile
  let x8 ← CI.ProfileDestinationView.validate x7
  let x9 ← CI.asView CI.ProfileDestinationView.validate x7
  let x10 ← CI.makeView x7
  let x11 ← UniversalSysex.View.deviceId x10
  return decide (4711 = (x3.toNat : Int)) && ((⟨1, 2, 3, 4, 5⟩ : CI.ProfileId).eqv x4) && decide (0 = (x5.toNat :
    Int)) && (({ scope := 5, numChannels := 0 } : CI.ProfileDestination).eqv x6) && decide (19 = (x7.data.length :
    Int)) && x8 && x9.isSome && decide (126 = (x11.toNat : Int))) = true := by decide +kernel

-- ci_profile_configuration,set_profile_off: lines 1259-1276
example : holds (do
  let x1 ← CI.makeProfileOff 123089938 42 (⟨126, 68, 51, 34, 17⟩ : CI.ProfileId) CI.groupProfile
  let x2 ← CI.makeView x1
  let x3 ← UniversalSysex.View.type x2
  let x4 ← UniversalSysex.View.subtype x2
  let x5 ← CI.View.messageVersion x2
  let x6 ← CI.View.sourceMuid x2
  let x7 ← CI.View.destinationMuid x2
  let x8 ← CI.ProfileIdView.profile x2
  let x9 ← CI.makeProfileOff 126182209 43164338 (⟨126, 68, 51, 34, 17⟩ : CI.ProfileId) (CI.channelProfile 0 1)
  let x10 := { x9 with data := x9.data.set 2 49 }
  let x11 ← CI.ProfileDestinationView.validate x10
  let x12 ← CI.asView CI.ProfileDestinationView.validate x10
  return decide (32269 = (x3.toNat : Int)) && decide (35 = (x4.toNat : Int)) && decide (2 = (x5.toNat : Int)) &&
    decide (123089938 = (x6.toNat : Int)) && decide (42 = (x7.toNat : Int)) && ((⟨126, 68, 51, 34, 17⟩ :
    CI.ProfileId).eqv x8) && (!x11) && (!x12.isSome)) = true := by decide +kernel

-- ci_profile_configuration,profile_enabled: lines 1293-1304
example : holds (do
  let x1 ← CI.makeProfileEnabled 36984440 1052688 (⟨1, 2, 3, 4, 5⟩ : CI.ProfileId) (CI.channelProfile 13 1)
  let x2 ← CI.ProfileDestinationView.validate x1
  let x3 ← CI.asView CI.ProfileDestinationView.validate x1
  let x4 ← CI.makeView x1
  let x5 ← UniversalSysex.View.deviceId x4
  let x6 ← UniversalSysex.View.type x4
  let x7 ← UniversalSysex.View.subtype x4
  let x8 ← CI.View.messageVersion x4
  let x9 ← CI.View.sourceMuid x4
  return decide (19 = (x1.data.length : Int)) && x2 && x3.isSome && decide (13 = (x5.toNat : Int)) && decide (32269 =
    (x6.toNat : Int)) && decide (36 = (x7.toNat : Int)) && decide (2 = (x8.toNat : Int)) && decide (36984440 =
    (x9.toNat : Int))) = true := by decide +kernel

-- ci_profile_configuration,profile_enabled: lines 1305-1326
example : holds (do
  let x1 ← CI.makeProfileEnabled 36984440 1052688 (⟨1, 2, 3, 4, 5⟩ : CI.ProfileId) (CI.channelProfile 13 1)
  let x2 ← CI.makeView x1
  let x3 ← CI.View.destinationMuid x2
  let x4 ← CI.ProfileIdView.profile x2
  let x5 ← CI.ProfileDestinationView.numChannels x2
  let x6 ← CI.ProfileDestinationView.params x2
  let x7 ← CI.makeProfileEnabled 126235666 90469250 (⟨126, 68, 51, 34, 17⟩ : CI.ProfileId) CI.groupProfile
  let x8 ← CI.ProfileDestinationView.validate x7
  let x9 ← CI.asView CI.ProfileDestinationView.validate x7
  let x10 ← CI.makeView x7
  let x11 ← UniversalSysex.View.deviceId x10
  return decide (1052688 = (x3.toNat : Int)) && ((⟨1, 2, 3, 4, 5⟩ : CI.ProfileId).eqv x4) && decide (1 = (x5.toNat :
    Int)) && ((CI.channelProfile 13 1).eqv x6) && decide (19 = (x7.data.length : Int)) && x8 && x9.isSome && decide
    (126 = (x11.toNat : Int))) = true := by decide +kernel

-- ci_profile_configuration,profile_enabled: lines 1327-1334
example : holds (do
  let x1 ← CI.makeProfileEnabled 126235666 90469250 (⟨126, 68, 51, 34, 17⟩ : CI.ProfileId) CI.groupProfile
  let x2 ← CI.makeView x1
  let x3 ← UniversalSysex.View.type x2
  let x4 ← UniversalSysex.View.subtype x2
  let x5 ← CI.View.messageVersion x2
  let x6 ← CI.View.sourceMuid x2
  let x7 ← CI.View.destinationMuid x2
  let x8 ← CI.ProfileIdView.profile x2
  let x9 ← CI.ProfileDestinationView.numChannels x2
  let x10 ← CI.ProfileDestinationView.params x2
  return decide (32269 = (x3.toNat : Int)) && decide (36 = (x4.toNat : Int)) && decide (2 = (x5.toNat : Int)) &&
    decide (126235666 = (x6.toNat : Int)) && decide (90469250 = (x7.toNat : Int)) && ((⟨126, 68, 51, 34, 17⟩ :
    CI.ProfileId).eqv x8) && decide (0 = (x9.toNat : Int)) && (({ scope := 126, numChannels := 0 } :
    CI.ProfileDestination).eqv x10)) = true := by decide +kernel

-- ci_profile_configuration,profile_enabled: lines 1346-1347
example : holds (do
  let x1 ← CI.makeProfileEnabled 139867154 1648695 (⟨126, 68, 51, 34, 17⟩ : CI.ProfileId) CI.functionBlockProfile
  let x2 := { x1 with data := x1.data.set 2 49 }
  let x3 ← CI.ProfileDestinationView.validate x2
  let x4 ← CI.asView CI.ProfileDestinationView.validate x2
  return (!x3) && (!x4.isSome)) = true := by decide +kernel

-- ci_profile_configuration,profile_disabled: lines 1364-1375
example : holds (do
  let x1 ← CI.makeProfileDisabled 19088743 5 (⟨1, 2, 3, 4, 5⟩ : CI.ProfileId) (CI.channelProfile 13 9)
  let x2 ← CI.ProfileDestinationView.validate x1
  let x3 ← CI.asView CI.ProfileDestinationView.validate x1
  let x4 ← CI.makeView x1
  let x5 ← UniversalSysex.View.deviceId x4
  let x6 ← UniversalSysex.View.type x4
  let x7 ← UniversalSysex.View.subtype x4
  let x8 ← CI.View.messageVersion x4
  let x9 ← CI.View.sourceMuid x4
  return decide (19 = (x1.data.length : Int)) && x2 && x3.isSome && decide (13 = (x5.toNat : Int)) && decide (32269 =
    (x6.toNat : Int)) && decide (37 = (x7.toNat : Int)) && decide (2 = (x8.toNat : Int)) && decide (19088743 =
    (x9.toNat : Int))) = true := by decide +kernel

-- ci_profile_configuration,profile_disabled: lines 1376-1397
example : holds (do
  let x1 ← CI.makeProfileDisabled 19088743 5 (⟨1, 2, 3, 4, 5⟩ : CI.ProfileId) (CI.channelProfile 13 9)
  let x2 ← CI.makeView x1
  let x3 ← CI.View.destinationMuid x2
  let x4 ← CI.ProfileIdView.profile x2
  let x5 ← CI.ProfileDestinationView.numChannels x2
  let x6 ← CI.ProfileDestinationView.params x2
  let x7 ← CI.makeProfileDisabled 126182209 161061273 (⟨126, 68, 51, 34, 17⟩ : CI.ProfileId) CI.groupProfile
  let x8 ← CI.ProfileDestinationView.validate x7
  let x9 ← CI.asView CI.ProfileDestinationView.validate x7
  let x10 ← CI.makeView x7
  let x11 ← UniversalSysex.View.deviceId x10
  return decide (5 = (x3.toNat : Int)) && ((⟨1, 2, 3, 4, 5⟩ : CI.ProfileId).eqv x4) && decide (9 = (x5.toNat : Int))
    && (({ scope := 13, numChannels := 9 } : CI.ProfileDestination).eqv x6) && decide (19 = (x7.data.length : Int)) &&
    x8 && x9.isSome && decide (126 = (x11.toNat : Int))) = true := by decide +kernel

-- ci_profile_configuration,profile_disabled: lines 1398-1405
example : holds (do
  let x1 ← CI.makeProfileDisabled 126182209 161061273 (⟨126, 68, 51, 34, 17⟩ : CI.ProfileId) CI.groupProfile
  let x2 ← CI.makeView x1
  let x3 ← UniversalSysex.View.type x2
  let x4 ← UniversalSysex.View.subtype x2
  let x5 ← CI.View.messageVersion x2
  let x6 ← CI.View.sourceMuid x2
  let x7 ← CI.View.destinationMuid x2
  let x8 ← CI.ProfileIdView.profile x2
  let x9 ← CI.ProfileDestinationView.numChannels x2
  let x10 ← CI.ProfileDestinationView.params x2
  return decide (32269 = (x3.toNat : Int)) && decide (37 = (x4.toNat : Int)) && decide (2 = (x5.toNat : Int)) &&
    decide (126182209 = (x6.toNat : Int)) && decide (161061273 = (x7.toNat : Int)) && ((⟨126, 68, 51, 34, 17⟩ :
    CI.ProfileId).eqv x8) && decide (0 = (x9.toNat : Int)) && (({ scope := 126, numChannels := 0 } :
    CI.ProfileDestination).eqv x10)) = true := by decide +kernel

-- ci_profile_configuration,profile_disabled: lines 1417-1418
example : holds (do
  let x1 ← CI.makeProfileDisabled 126182162 13 (⟨126, 68, 51, 34, 17⟩ : CI.ProfileId) CI.functionBlockProfile
  let x2 := { x1 with data := x1.data.set 2 49 }
  let x3 ← CI.ProfileDestinationView.validate x2
  let x4 ← CI.asView CI.ProfileDestinationView.validate x2
  return (!x3) && (!x4.isSome)) = true := by decide +kernel

-- ci_profile_configuration,profile_added: lines 1434-1445
example : holds (do
  let x1 ← CI.makeProfileAdded 19088743 5 (⟨1, 2, 3, 4, 5⟩ : CI.ProfileId) 13
  let x2 ← CI.ProfileIdView.validate x1
  let x3 ← CI.asView CI.ProfileIdView.validate x1
  let x4 ← CI.makeView x1
  let x5 ← UniversalSysex.View.deviceId x4
  let x6 ← UniversalSysex.View.type x4
  let x7 ← UniversalSysex.View.subtype x4
  let x8 ← CI.View.messageVersion x4
  let x9 ← CI.View.sourceMuid x4
  return decide (17 = (x1.data.length : Int)) && x2 && x3.isSome && decide (13 = (x5.toNat : Int)) && decide (32269 =
    (x6.toNat : Int)) && decide (38 = (x7.toNat : Int)) && decide (2 = (x8.toNat : Int)) && decide (19088743 =
    (x9.toNat : Int))) = true := by decide +kernel

-- ci_profile_configuration,profile_added: lines 1446-1467
example : holds (do
  let x1 ← CI.makeProfileAdded 19088743 5 (⟨1, 2, 3, 4, 5⟩ : CI.ProfileId) 13
  let x2 ← CI.makeView x1
  let x3 ← CI.View.destinationMuid x2
  let x4 ← CI.ProfileIdView.profile x2
  let x5 ← CI.makeProfileAdded 126182209 161061273 (⟨126, 68, 51, 34, 17⟩ : CI.ProfileId) 127
  let x6 ← CI.ProfileIdView.validate x5
  let x7 ← CI.asView CI.ProfileIdView.validate x5
  let x8 ← CI.makeView x5
  let x9 ← UniversalSysex.View.deviceId x8
  let x10 ← UniversalSysex.View.type x8
  let x11 ← UniversalSysex.View.subtype x8
  return decide (5 = (x3.toNat : Int)) && ((⟨1, 2, 3, 4, 5⟩ : CI.ProfileId).eqv x4) && decide (17 = (x5.data.length :
    Int)) && x6 && x7.isSome && decide (127 = (x9.toNat : Int)) && decide (32269 = (x10.toNat : Int)) && decide (38 =
    (x11.toNat : Int))) = true := by decide +kernel

-- ci_profile_configuration,profile_added: lines 1468-1483
example : holds (do
  let x1 ← CI.makeProfileAdded 126182209 161061273 (⟨126, 68, 51, 34, 17⟩ : CI.ProfileId) 127
  let x2 ← CI.makeView x1
  let x3 ← CI.View.messageVersion x2
  let x4 ← CI.View.sourceMuid x2
  let x5 ← CI.View.destinationMuid x2
  let x6 ← CI.ProfileIdView.profile x2
  let x7 ← CI.makeProfileAdded 126182162 13 (⟨126, 68, 51, 34, 17⟩ : CI.ProfileId) 127
  let x8 := { x7 with data := x7.data.set 2 49 }
  let x9 ← CI.ProfileIdView.validate x8
  let x10 ← CI.asView CI.ProfileIdView.validate x8
  return decide (2 = (x3.toNat : Int)) && decide (126182209 = (x4.toNat : Int)) && decide (161061273 = (x5.toNat :
    Int)) && ((⟨126, 68, 51, 34, 17⟩ : CI.ProfileId).eqv x6) && (!x9) && (!x10.isSome)) = true := by decide +kernel

-- ci_profile_configuration,profile_removed: lines 1499-1510
example : holds (do
  let x1 ← CI.makeProfileRemoved 19088743 5 (⟨1, 2, 3, 4, 5⟩ : CI.ProfileId) 13
  let x2 ← CI.ProfileIdView.validate x1
  let x3 ← CI.asView CI.ProfileIdView.validate x1
  let x4 ← CI.makeView x1
  let x5 ← UniversalSysex.View.deviceId x4
  let x6 ← UniversalSysex.View.type x4
  let x7 ← UniversalSysex.View.subtype x4
  let x8 ← CI.View.messageVersion x4
  let x9 ← CI.View.sourceMuid x4
  return decide (17 = (x1.data.length : Int)) && x2 && x3.isSome && decide (13 = (x5.toNat : Int)) && decide (32269 =
    (x6.toNat : Int)) && decide (39 = (x7.toNat : Int)) && decide (2 = (x8.toNat : Int)) && decide (19088743 =
    (x9.toNat : Int))) = true := by decide +kernel

-- ci_profile_configuration,profile_removed: lines 1511-1530
example : holds (do
  let x1 ← CI.makeProfileRemoved 19088743 5 (⟨1, 2, 3, 4, 5⟩ : CI.ProfileId) 13
  let x2 ← CI.makeView x1
  let x3 ← CI.View.destinationMuid x2
  let x4 ← CI.ProfileIdView.profile x2
  let x5 ← CI.makeProfileRemoved 126182209 161061273 (⟨126, 68, 51, 34, 17⟩ : CI.ProfileId) 127
  let x6 ← CI.ProfileIdView.validate x5
  let x7 ← CI.asView CI.ProfileIdView.validate x5
  let x8 ← CI.makeView x5
  let x9 ← UniversalSysex.View.deviceId x8
  let x10 ← UniversalSysex.View.type x8
  let x11 ← UniversalSysex.View.subtype x8
  return decide (5 = (x3.toNat : Int)) && ((⟨1, 2, 3, 4, 5⟩ : CI.ProfileId).eqv x4) && decide (17 = (x5.data.length :
    Int)) && x6 && x7.isSome && decide (127 = (x9.toNat : Int)) && decide (32269 = (x10.toNat : Int)) && decide (39 =
    (x11.toNat : Int))) = true := by decide +kernel

-- ci_profile_configuration,profile_removed: lines 1531-1546
example : holds (do
  let x1 ← CI.makeProfileRemoved 126182209 161061273 (⟨126, 68, 51, 34, 17⟩ : CI.ProfileId) 127
  let x2 ← CI.makeView x1
  let x3 ← CI.View.messageVersion x2
  let x4 ← CI.View.sourceMuid x2
  let x5 ← CI.View.destinationMuid x2
  let x6 ← CI.ProfileIdView.profile x2
  let x7 ← CI.makeProfileRemoved 126182162 13 (⟨126, 68, 51, 34, 17⟩ : CI.ProfileId) 127
  let x8 := { x7 with data := x7.data.set 2 49 }
  let x9 ← CI.ProfileIdView.validate x8
  let x10 ← CI.asView CI.ProfileIdView.validate x8
  return decide (2 = (x3.toNat : Int)) && decide (126182209 = (x4.toNat : Int)) && decide (161061273 = (x5.toNat :
    Int)) && ((⟨126, 68, 51, 34, 17⟩ : CI.ProfileId).eqv x6) && (!x9) && (!x10.isSome)) = true := by decide +kernel

-- ci_profile_configuration,profile_details_inquiry_view: lines 1577-1588
example : holds (do
  let x1 := (⟨8257536, [9, 13, 40, 2, 69, 86, 71, 56, 68, 51, 34, 17, 1, 2, 3, 4, 5, 52]⟩ : Sysex)
  let x2 ← CI.ProfileDetailsInquiryView.validate x1
  let x3 ← CI.asView CI.ProfileDetailsInquiryView.validate x1
  let x4 ← CI.makeView x1
  let x5 ← UniversalSysex.View.deviceId x4
  let x6 ← UniversalSysex.View.type x4
  let x7 ← UniversalSysex.View.subtype x4
  let x8 ← CI.View.messageVersion x4
  let x9 ← CI.View.sourceMuid x4
  let x10 ← CI.View.destinationMuid x4
  return x2 && x3.isSome && decide (9 = (x5.toNat : Int)) && decide (32269 = (x6.toNat : Int)) && decide (40 =
    (x7.toNat : Int)) && decide (2 = (x8.toNat : Int)) && decide (118614853 = (x9.toNat : Int)) && decide (36215236 =
    (x10.toNat : Int))) = true := by decide +kernel

-- ci_profile_configuration,profile_details_inquiry_view: lines 1591-1627
example : holds (do
  let x1 := (⟨8257536, [9, 13, 40, 2, 69, 86, 71, 56, 68, 51, 34, 17, 1, 2, 3, 4, 5, 52]⟩ : Sysex)
  let x2 ← CI.makeView x1
  let x3 ← CI.ProfileDetailsInquiryView.profile x2
  let x4 ← CI.ProfileDetailsInquiryView.target x2
  let x5 := (⟨8257536, [9, 13, 34, 2, 69, 86, 71, 56, 68, 51, 34, 17, 1, 2, 3, 4, 5, 52]⟩ : Sysex)
  let x6 ← CI.ProfileDetailsInquiryView.validate x5
  let x7 := (⟨8257536, [9, 13, 40, 2, 69, 86, 71, 56, 68, 51, 34, 17, 1, 2, 3, 4, 5]⟩ : Sysex)
  let x8 ← CI.ProfileDetailsInquiryView.validate x7
  return ((⟨1, 2, 3, 4, 5⟩ : CI.ProfileId).eqv x3) && decide (52 = (x4.toNat : Int)) && (!x6) && (!x8)) = true := by decide +kernel

-- ci_profile_configuration,make_profile_details_inquiry: lines 1643-1655
example : holds (do
  let x1 ← CI.makeProfileDetailsInquiry 36984440 1052688 (⟨126, 68, 51, 34, 17⟩ : CI.ProfileId) 50 126
  let x2 ← CI.ProfileDetailsInquiryView.validate x1
  let x3 ← CI.asView CI.ProfileDetailsInquiryView.validate x1
  let x4 ← CI.makeView x1
  let x5 ← UniversalSysex.View.deviceId x4
  let x6 ← UniversalSysex.View.type x4
  let x7 ← UniversalSysex.View.subtype x4
  let x8 ← CI.View.messageVersion x4
  let x9 ← CI.View.sourceMuid x4
  return decide (18 = (x1.data.length : Int)) && x2 && x3.isSome && decide (126 = (x5.toNat : Int)) && decide (32269 =
    (x6.toNat : Int)) && decide (40 = (x7.toNat : Int)) && decide (2 = (x8.toNat : Int)) && decide (36984440 =
    (x9.toNat : Int))) = true := by decide +kernel

-- ci_profile_configuration,make_profile_details_inquiry: lines 1656-1659
example : holds (do
  let x1 ← CI.makeProfileDetailsInquiry 36984440 1052688 (⟨126, 68, 51, 34, 17⟩ : CI.ProfileId) 50 126
  let x2 ← CI.makeView x1
  let x3 ← CI.View.destinationMuid x2
  let x4 ← CI.ProfileDetailsInquiryView.profile x2
  let x5 ← CI.ProfileDetailsInquiryView.target x2
  return decide (1052688 = (x3.toNat : Int)) && ((⟨126, 68, 51, 34, 17⟩ : CI.ProfileId).eqv x4) && decide (50 =
    (x5.toNat : Int))) = true := by decide +kernel

-- ci_profile_configuration,profile_details_reply_view: lines 1676-1687
example : holds (do
  let x1 := (⟨8257536, [9, 13, 41, 2, 69, 86, 71, 56, 68, 51, 34, 17, 1, 2, 3, 4, 5, 17, 9, 0, 9, 8, 7, 6, 5, 4, 3, 2,
    1]⟩ : Sysex)
  let x2 ← CI.ProfileDetailsReplyView.validate x1
  let x3 ← CI.asView CI.ProfileDetailsReplyView.validate x1
  let x4 ← CI.makeView x1
  let x5 ← UniversalSysex.View.deviceId x4
  let x6 ← UniversalSysex.View.type x4
  let x7 ← UniversalSysex.View.subtype x4
  let x8 ← CI.View.messageVersion x4
  let x9 ← CI.View.sourceMuid x4
  let x10 ← CI.View.destinationMuid x4
  return x2 && x3.isSome && decide (9 = (x5.toNat : Int)) && decide (32269 = (x6.toNat : Int)) && decide (41 =
    (x7.toNat : Int)) && decide (2 = (x8.toNat : Int)) && decide (118614853 = (x9.toNat : Int)) && decide (36215236 =
    (x10.toNat : Int))) = true := by decide +kernel

-- ci_profile_configuration,profile_details_reply_view: lines 1689-1697
example : holds (do
  let x1 := (⟨8257536, [9, 13, 41, 2, 69, 86, 71, 56, 68, 51, 34, 17, 1, 2, 3, 4, 5, 17, 9, 0, 9, 8, 7, 6, 5, 4, 3, 2,
    1]⟩ : Sysex)
  let x2 ← CI.makeView x1
  let x3 ← CI.ProfileDetailsReplyView.target x2
  let x4 ← CI.ProfileDetailsReplyView.dataLength x2
  let x5 ← CI.ProfileDetailsReplyView.data x2
  let x6 ← index x5 0
  let x7 ← index x5 1
  let x8 ← index x5 2
  let x9 ← index x5 3
  let x10 ← index x5 4
  let x11 ← index x5 5
  return decide (17 = (x3.toNat : Int)) && decide (9 = (x4.toNat : Int)) && decide (9 = (x6.toNat : Int)) && decide (8
    = (x7.toNat : Int)) && decide (7 = (x8.toNat : Int)) && decide (6 = (x9.toNat : Int)) && decide (5 = (x10.toNat :
    Int)) && decide (4 = (x11.toNat : Int))) = true := by decide +kernel

-- ci_profile_configuration,profile_details_reply_view: lines 1698-1718
example : holds (do
  let x1 := (⟨8257536, [9, 13, 41, 2, 69, 86, 71, 56, 68, 51, 34, 17, 1, 2, 3, 4, 5, 17, 9, 0, 9, 8, 7, 6, 5, 4, 3, 2,
    1]⟩ : Sysex)
  let x2 ← CI.makeView x1
  let x3 ← CI.ProfileDetailsReplyView.data x2
  let x4 ← index x3 6
  let x5 ← index x3 7
  let x6 ← index x3 8
  let x7 := (⟨8257536, [9, 13, 46, 2, 69, 86, 71, 56, 68, 51, 34, 17, 1, 2, 3, 4, 5, 17, 9, 0, 9, 8, 7, 6, 5, 4, 3, 2,
    1]⟩ : Sysex)
  let x8 ← CI.ProfileDetailsReplyView.validate x7
  let x9 := (⟨8257536, [9, 13, 41, 2, 69, 86, 71, 56, 68, 51, 34, 17, 1, 2, 3, 4, 5, 17, 0, 1, 9, 8, 7, 6, 5, 4, 3, 2,
    1]⟩ : Sysex)
  let x10 ← CI.ProfileDetailsReplyView.validate x9
  return decide (3 = (x4.toNat : Int)) && decide (2 = (x5.toNat : Int)) && decide (1 = (x6.toNat : Int)) && (!x8) &&
    (!x10)) = true := by decide +kernel

-- ci_profile_configuration,make_profile_details_reply: lines 1735-1747
example : holds (do
  let x1 ← CI.makeProfileDetailsReply 36984440 1052688 (⟨126, 68, 51, 34, 17⟩ : CI.ProfileId) 50 (List.take 11 [10, 9,
    8, 7, 6, 5, 4, 3, 2, 1, 0]) 127
  let x2 ← CI.ProfileDetailsReplyView.validate x1
  let x3 ← CI.asView CI.ProfileDetailsReplyView.validate x1
  let x4 ← CI.makeView x1
  let x5 ← UniversalSysex.View.deviceId x4
  let x6 ← UniversalSysex.View.type x4
  let x7 ← UniversalSysex.View.subtype x4
  let x8 ← CI.View.messageVersion x4
  let x9 ← CI.View.sourceMuid x4
  return decide (31 = (x1.data.length : Int)) && x2 && x3.isSome && decide (127 = (x5.toNat : Int)) && decide (32269 =
    (x6.toNat : Int)) && decide (41 = (x7.toNat : Int)) && decide (2 = (x8.toNat : Int)) && decide (36984440 =
    (x9.toNat : Int))) = true := by decide +kernel

-- ci_profile_configuration,make_profile_details_reply: lines 1748-1754
example : holds (do
  let x1 ← CI.makeProfileDetailsReply 36984440 1052688 (⟨126, 68, 51, 34, 17⟩ : CI.ProfileId) 50 (List.take 11 [10, 9,
    8, 7, 6, 5, 4, 3, 2, 1, 0]) 127
  let x2 ← CI.makeView x1
  let x3 ← CI.View.destinationMuid x2
  let x4 ← CI.ProfileDetailsReplyView.profile x2
  let x5 ← CI.ProfileDetailsReplyView.target x2
  let x6 ← CI.ProfileDetailsReplyView.dataLength x2
  let x7 ← CI.ProfileDetailsReplyView.data x2
  return decide (1052688 = (x3.toNat : Int)) && ((⟨126, 68, 51, 34, 17⟩ : CI.ProfileId).eqv x4) && decide (50 =
    (x5.toNat : Int)) && decide (11 = (x6.toNat : Int)) && decide (0 = (if List.take 11 [10, 9, 8, 7, 6, 5, 4, 3, 2,
    1, 0] = List.take 11 x7 then 0 else 1))) = true := by decide +kernel

-- ci_profile_configuration,profile_specific_data: lines 1770-1781
example : holds (do
  let x1 ← CI.makeProfileSpecificData 19088743 5 (⟨1, 2, 3, 4, 5⟩ : CI.ProfileId) (List.take 0 []) 13
  let x2 ← CI.ProfileSpecificDataView.validate x1
  let x3 ← CI.asView CI.ProfileSpecificDataView.validate x1
  let x4 ← CI.makeView x1
  let x5 ← UniversalSysex.View.deviceId x4
  let x6 ← UniversalSysex.View.type x4
  let x7 ← UniversalSysex.View.subtype x4
  let x8 ← CI.View.messageVersion x4
  let x9 ← CI.View.sourceMuid x4
  return decide (21 = (x1.data.length : Int)) && x2 && x3.isSome && decide (13 = (x5.toNat : Int)) && decide (32269 =
    (x6.toNat : Int)) && decide (47 = (x7.toNat : Int)) && decide (2 = (x8.toNat : Int)) && decide (19088743 =
    (x9.toNat : Int))) = true := by decide +kernel

-- ci_profile_configuration,profile_specific_data: lines 1782-1800
example : holds (do
  let x1 ← CI.makeProfileSpecificData 19088743 5 (⟨1, 2, 3, 4, 5⟩ : CI.ProfileId) (List.take 0 []) 13
  let x2 ← CI.makeView x1
  let x3 ← CI.View.destinationMuid x2
  let x4 ← CI.ProfileIdView.profile x2
  let x5 ← CI.ProfileSpecificDataView.dataSize x2
  let x6 ← CI.ProfileSpecificDataView.data x2
  let x7 ← CI.makeProfileSpecificData 126182209 161061273 (⟨126, 68, 51, 34, 17⟩ : CI.ProfileId) (List.take 4 [1, 2,
    3, 4]) 127
  let x8 ← CI.ProfileSpecificDataView.validate x7
  let x9 ← CI.asView CI.ProfileSpecificDataView.validate x7
  let x10 ← CI.makeView x7
  let x11 ← UniversalSysex.View.deviceId x10
  return decide (5 = (x3.toNat : Int)) && ((⟨1, 2, 3, 4, 5⟩ : CI.ProfileId).eqv x4) && decide (0 = (x5 : Int)) &&
    x6.isEmpty && decide (25 = (x7.data.length : Int)) && x8 && x9.isSome && decide (127 = (x11.toNat : Int))) = true := by decide +kernel

-- ci_profile_configuration,profile_specific_data: lines 1801-1808
example : holds (do
  let x1 ← CI.makeProfileSpecificData 126182209 161061273 (⟨126, 68, 51, 34, 17⟩ : CI.ProfileId) (List.take 4 [1, 2,
    3, 4]) 127
  let x2 ← CI.makeView x1
  let x3 ← UniversalSysex.View.type x2
  let x4 ← UniversalSysex.View.subtype x2
  let x5 ← CI.View.messageVersion x2
  let x6 ← CI.View.sourceMuid x2
  let x7 ← CI.View.destinationMuid x2
  let x8 ← CI.ProfileIdView.profile x2
  let x9 ← CI.ProfileSpecificDataView.dataSize x2
  let x10 ← CI.ProfileSpecificDataView.data x2
  return decide (32269 = (x3.toNat : Int)) && decide (47 = (x4.toNat : Int)) && decide (2 = (x5.toNat : Int)) &&
    decide (126182209 = (x6.toNat : Int)) && decide (161061273 = (x7.toNat : Int)) && ((⟨126, 68, 51, 34, 17⟩ :
    CI.ProfileId).eqv x8) && decide (4 = (x9 : Int)) && decide (x10.length = 4)) = true := by decide +kernel

-- ci_profile_configuration,profile_specific_data: lines 1809-1827
example : holds (do
  let x1 ← CI.makeProfileSpecificData 126182209 161061273 (⟨126, 68, 51, 34, 17⟩ : CI.ProfileId) (List.take 4 [1, 2,
    3, 4]) 127
  let x2 ← CI.makeView x1
  let x3 ← CI.ProfileSpecificDataView.data x2
  let x4 ← CI.makeProfileSpecificDataVector 126182162 13 (⟨126, 68, 51, 34, 17⟩ : CI.ProfileId) [10, 9, 8, 7, 6, 5, 4,
    3, 2, 1, 0] 127
  let x5 ← CI.ProfileSpecificDataView.validate x4
  let x6 ← CI.asView CI.ProfileSpecificDataView.validate x4
  let x7 ← CI.makeView x4
  let x8 ← UniversalSysex.View.deviceId x7
  let x9 ← UniversalSysex.View.type x7
  let x10 ← UniversalSysex.View.subtype x7
  let x11 ← CI.View.messageVersion x7
  return decide (0 = (if List.take 4 [1, 2, 3, 4] = List.take 4 x3 then 0 else 1)) && decide (32 = (x4.data.length :
    Int)) && x5 && x6.isSome && decide (127 = (x8.toNat : Int)) && decide (32269 = (x9.toNat : Int)) && decide (47 =
    (x10.toNat : Int)) && decide (2 = (x11.toNat : Int))) = true := by decide +kernel

-- ci_profile_configuration,profile_specific_data: lines 1828-1843
example : holds (do
  let x1 ← CI.makeProfileSpecificDataVector 126182162 13 (⟨126, 68, 51, 34, 17⟩ : CI.ProfileId) [10, 9, 8, 7, 6, 5, 4,
    3, 2, 1, 0] 127
  let x2 ← CI.makeView x1
  let x3 ← CI.View.sourceMuid x2
  let x4 ← CI.View.destinationMuid x2
  let x5 ← CI.ProfileIdView.profile x2
  let x6 ← CI.ProfileSpecificDataView.dataSize x2
  let x7 ← CI.ProfileSpecificDataView.data x2
  let x8 := { x1 with data := x1.data.set 18 7 }
  let x9 ← CI.ProfileSpecificDataView.validate x8
  return decide (126182162 = (x3.toNat : Int)) && decide (13 = (x4.toNat : Int)) && ((⟨126, 68, 51, 34, 17⟩ :
    CI.ProfileId).eqv x5) && decide (11 = (x6 : Int)) && decide (x7.length = 11) && decide (0 = (if List.take 11 [10,
    9, 8, 7, 6, 5, 4, 3, 2, 1, 0] = List.take 11 x7 then 0 else 1)) && (!x9)) = true := by decide +kernel

end Midi.Conformance
