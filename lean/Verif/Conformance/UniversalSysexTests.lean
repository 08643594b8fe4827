import Verif.Conformance.Prelude
import Verif.Model.ByteStream
import Verif.Model.CapabilityInquiry
import Verif.Model.Collector
import Verif.Model.Defaults
import Verif.Model.FlexData
import Verif.Model.Jitter
import Verif.Model.PitchTypes
import Verif.Model.Senders
import Verif.Model.Stream
import Verif.Model.Sysex
import Verif.Model.SysexPackets
import Verif.Model.TextFormat
import Verif.Model.Types
import Verif.Model.UniversalSysex
import Verif.Model.Reentrant

/-!
The expectations of tests/universal_sysex_tests.cpp about the model. Generated by tools/conformance.
-/

namespace Midi.Conformance

open Midi

-- universal_sysex,sysex7: lines 23-37
example : holds (do
  let x1 := (⟨8257536, []⟩ : Sysex)
  let x2 ← UniversalSysex.deviceIdOf x1
  let x3 ← UniversalSysex.typeOf x1
  let x4 ← UniversalSysex.subtypeOf x1
  let x5 := (⟨8323072, [170]⟩ : Sysex)
  let x6 ← UniversalSysex.deviceIdOf x5
  let x7 ← UniversalSysex.typeOf x5
  let x8 ← UniversalSysex.subtypeOf x5
  return (!(UniversalSysex.isUniversal x1)) && decide (255 = (x2.toNat : Int)) && decide (0 = (x3.toNat : Int)) &&
    decide (0 = (x4.toNat : Int)) && (!(UniversalSysex.isUniversal x5)) && decide (255 = (x6.toNat : Int)) && decide
    (0 = (x7.toNat : Int)) && decide (0 = (x8.toNat : Int))) = true := by decide +kernel

-- universal_sysex,sysex7: lines 43-59
example : holds (do
  let x1 := (⟨262144, [18, 52, 86, 120]⟩ : Sysex)
  let x2 := (⟨8257536, [127, 1]⟩ : Sysex)
  let x3 ← UniversalSysex.deviceIdOf x2
  let x4 ← UniversalSysex.typeOf x2
  let x5 ← UniversalSysex.subtypeOf x2
  let x6 ← UniversalSysex.makeView x2
  let x7 ← UniversalSysex.View.deviceId x6
  let x8 ← UniversalSysex.View.type x6
  let x9 ← UniversalSysex.View.subtype x6
  return (!(UniversalSysex.isUniversal x1)) && (UniversalSysex.isUniversal x2) && decide (127 = (x3.toNat : Int)) &&
    decide (32257 = (x4.toNat : Int)) && decide (0 = (x5.toNat : Int)) && decide (127 = (x7.toNat : Int)) && decide
    (32257 = (x8.toNat : Int)) && decide (0 = (x9.toNat : Int))) = true := by decide +kernel

-- universal_sysex,sysex7: lines 65-77
example : holds (do
  let x1 := (⟨8323072, [4, 1, 1, 26, 43, 60, 77]⟩ : Sysex)
  let x2 ← UniversalSysex.deviceIdOf x1
  let x3 ← UniversalSysex.typeOf x1
  let x4 ← UniversalSysex.subtypeOf x1
  let x5 ← UniversalSysex.makeView x1
  let x6 ← UniversalSysex.View.deviceId x5
  let x7 ← UniversalSysex.View.type x5
  let x8 ← UniversalSysex.View.subtype x5
  return (UniversalSysex.isUniversal x1) && decide (4 = (x2.toNat : Int)) && decide (32513 = (x3.toNat : Int)) &&
    decide (1 = (x4.toNat : Int)) && decide (4 = (x6.toNat : Int)) && decide (32513 = (x7.toNat : Int)) && decide (1 =
    (x8.toNat : Int)) && decide (7 = ((UniversalSysex.View.dataSize x5) : Int))) = true := by decide +kernel

-- universal_sysex,set_device_id: lines 91-96
example : holds (do
  let x1 := (⟨8323072, [4, 1, 1, 26, 43, 60, 77]⟩ : Sysex)
  let x2 ← UniversalSysex.Message.deviceId x1
  let x3 ← UniversalSysex.Message.setDeviceId x1 9
  let x4 ← UniversalSysex.Message.deviceId x3
  return (UniversalSysex.isUniversal x1) && decide (4 = (x2.toNat : Int)) && decide (9 = (x4.toNat : Int))) = true := by decide +kernel

-- universal_sysex,universal_sysex_view: lines 110-140
example : holds (do
  let x1 := (⟨8257536, []⟩ : Sysex)
  let x2 ← UniversalSysex.asView x1
  let x3 := (⟨8323072, [170]⟩ : Sysex)
  let x4 ← UniversalSysex.asView x3
  let x5 := (⟨262144, [18, 52, 86, 120]⟩ : Sysex)
  let x6 ← UniversalSysex.asView x5
  let x7 := (⟨8257536, [127, 1]⟩ : Sysex)
  let x8 ← UniversalSysex.asView x7
  let x9 ← valueOf x8
  let x10 ← UniversalSysex.View.deviceId x9
  let x11 ← UniversalSysex.View.type x9
  let x12 ← UniversalSysex.View.subtype x9
  let x13 := (⟨8323072, [4, 1, 1, 26, 43, 60, 77]⟩ : Sysex)
  let x14 ← UniversalSysex.asView x13
  return (!x2.isSome) && (!x4.isSome) && (!x6.isSome) && x8.isSome && decide (127 = (x10.toNat : Int)) && decide
    (32257 = (x11.toNat : Int)) && decide (0 = (x12.toNat : Int)) && x14.isSome) = true := by decide +kernel

-- universal_sysex,universal_sysex_view: lines 142-146
example : holds (do
  let x1 := (⟨8323072, [4, 1, 1, 26, 43, 60, 77]⟩ : Sysex)
  let x2 ← UniversalSysex.asView x1
  let x3 ← valueOf x2
  let x4 ← UniversalSysex.View.deviceId x3
  let x5 ← UniversalSysex.View.type x3
  let x6 ← UniversalSysex.View.subtype x3
  return decide (4 = (x4.toNat : Int)) && decide (32513 = (x5.toNat : Int)) && decide (1 = (x6.toNat : Int)) && decide
    (7 = ((UniversalSysex.View.dataSize x3) : Int))) = true := by decide +kernel

-- universal_sysex,identity_request: lines 163-193
example : holds (do
  let x1 := (⟨8257536, [127, 6, 1]⟩ : Sysex)
  let x2 ← UniversalSysex.makeView x1
  let x3 ← UniversalSysex.View.deviceId x2
  let x4 ← UniversalSysex.View.type x2
  let x5 ← UniversalSysex.View.subtype x2
  let x6 ← UniversalSysex.isIdentityRequest x1
  let x7 := (⟨8257536, [127, 6, 2]⟩ : Sysex)
  let x8 ← UniversalSysex.isIdentityRequest x7
  let x9 := (⟨8257536, [127, 2, 1]⟩ : Sysex)
  let x10 ← UniversalSysex.isIdentityRequest x9
  let x11 := (⟨8457, [4, 5, 6, 7, 8, 9, 10, 11, 12, 13, 14, 247]⟩ : Sysex)
  let x12 ← UniversalSysex.isIdentityRequest x11
  let x13 := UniversalSysex.makeIdentityRequest 127
  return decide (127 = (x3.toNat : Int)) && decide (32262 = (x4.toNat : Int)) && decide (1 = (x5.toNat : Int)) && x6
    && (!x8) && (!x10) && (!x12) && (UniversalSysex.isUniversal x13)) = true := by decide +kernel

-- universal_sysex,identity_request: lines 195-214
example : holds (do
  let x1 := UniversalSysex.makeIdentityRequest 127
  let x2 ← UniversalSysex.Message.deviceId x1
  let x3 ← UniversalSysex.Message.type x1
  let x4 ← UniversalSysex.Message.subtype x1
  let x5 ← UniversalSysex.isIdentityRequest x1
  let x6 := UniversalSysex.makeIdentityRequest 5
  let x7 ← UniversalSysex.Message.deviceId x6
  let x8 ← UniversalSysex.Message.type x6
  return decide (127 = (x2.toNat : Int)) && decide (32262 = (x3.toNat : Int)) && decide (1 = (x4.toNat : Int)) && x5
    && (x1.eqv x1) && (UniversalSysex.isUniversal x6) && decide (5 = (x7.toNat : Int)) && decide (32262 = (x8.toNat :
    Int))) = true := by decide +kernel

-- universal_sysex,identity_request: lines 215-219
example : holds (do
  let x1 := UniversalSysex.makeIdentityRequest 5
  let x2 ← UniversalSysex.Message.subtype x1
  let x3 ← UniversalSysex.isIdentityRequest x1
  return decide (1 = (x2.toNat : Int)) && x3 && (x1.eqv x1)) = true := by decide +kernel

-- universal_sysex,identity_reply: lines 239-251
example : holds (do
  let x1 := (⟨8257536, [0, 6, 2, 65, 115, 82, 52, 18, 0, 7, 124, 68]⟩ : Sysex)
  let x2 ← UniversalSysex.makeView x1
  let x3 ← UniversalSysex.View.deviceId x2
  let x4 ← UniversalSysex.View.type x2
  let x5 ← UniversalSysex.View.subtype x2
  let x6 ← UniversalSysex.isIdentityReply x1
  let x7 ← UniversalSysex.asIdentityReplyView x1
  let x8 ← UniversalSysex.asIdentityReplyView x2
  let x9 ← UniversalSysex.IdentityReplyView.identity x2
  return decide (0 = (x3.toNat : Int)) && decide (32262 = (x4.toNat : Int)) && decide (2 = (x5.toNat : Int)) && x6 &&
    x7.isSome && x8.isSome && decide (4259840 = (x9.manufacturer.toNat : Int))) = true := by decide +kernel

-- universal_sysex,identity_reply: lines 252-268
example : holds (do
  let x1 := (⟨8257536, [0, 6, 2, 65, 115, 82, 52, 18, 0, 7, 124, 68]⟩ : Sysex)
  let x2 ← UniversalSysex.makeView x1
  let x3 ← UniversalSysex.IdentityReplyView.identity x2
  let x4 := (⟨8257536, [84, 6, 2, 0, 33, 9, 48, 46, 49, 0, 5, 4, 4, 0]⟩ : Sysex)
  let x5 ← UniversalSysex.makeView x4
  let x6 ← UniversalSysex.View.deviceId x5
  let x7 ← UniversalSysex.View.type x5
  let x8 ← UniversalSysex.View.subtype x5
  let x9 ← UniversalSysex.isIdentityReply x4
  let x10 ← UniversalSysex.asIdentityReplyView x4
  return decide (10611 = (x3.family.toNat : Int)) && decide (2356 = (x3.model.toNat : Int)) && decide (144638848 =
    (x3.revision.toNat : Int)) && decide (84 = (x6.toNat : Int)) && decide (32262 = (x7.toNat : Int)) && decide (2 =
    (x8.toNat : Int)) && x9 && x10.isSome) = true := by decide +kernel

-- universal_sysex,identity_reply: lines 269-285
example : holds (do
  let x1 := (⟨8257536, [84, 6, 2, 0, 33, 9, 48, 46, 49, 0, 5, 4, 4, 0]⟩ : Sysex)
  let x2 ← UniversalSysex.makeView x1
  let x3 ← UniversalSysex.View.deviceId x2
  let x4 ← UniversalSysex.asIdentityReplyView x2
  let x5 ← UniversalSysex.IdentityReplyView.identity x2
  let x6 := (⟨8257536, [127, 6, 1]⟩ : Sysex)
  let x7 ← UniversalSysex.isIdentityReply x6
  let x8 ← UniversalSysex.asIdentityReplyView x6
  return x4.isSome && decide (84 = (x3.toNat : Int)) && decide (8457 = (x5.manufacturer.toNat : Int)) && decide (5936
    = (x5.family.toNat : Int)) && decide (49 = (x5.model.toNat : Int)) && decide (66053 = (x5.revision.toNat : Int))
    && (!x7) && (!x8.isSome)) = true := by decide +kernel

-- universal_sysex,identity_reply: lines 291-312
example : holds (do
  let x1 := (⟨8457, [4, 5, 6, 7, 8, 9, 10, 11, 12, 13, 14, 247]⟩ : Sysex)
  let x2 ← UniversalSysex.isIdentityReply x1
  let x3 ← UniversalSysex.asIdentityReplyView x1
  let x4 := (⟨8257536, [84, 6, 2, 0, 33, 9, 48, 23, 49, 0, 5, 2, 1]⟩ : Sysex)
  let x5 ← UniversalSysex.isIdentityReply x4
  let x6 ← UniversalSysex.asIdentityReplyView x4
  let x7 ← UniversalSysex.makeIdentityReply 8457 6144 32 256 127
  let x8 ← UniversalSysex.Message.deviceId x7
  let x9 ← UniversalSysex.Message.type x7
  let x10 ← UniversalSysex.Message.subtype x7
  return (!x2) && (!x3.isSome) && (!x5) && (!x6.isSome) && (UniversalSysex.isUniversal x7) && decide (127 = (x8.toNat
    : Int)) && decide (32262 = (x9.toNat : Int)) && decide (2 = (x10.toNat : Int))) = true := by decide +kernel

-- universal_sysex,identity_reply: lines 314-324
example : holds (do
  let x1 ← UniversalSysex.makeIdentityReply 8457 6144 32 256 127
  let x2 ← UniversalSysex.isIdentityReply x1
  let x3 ← UniversalSysex.asIdentityReplyView x1
  let x4 ← UniversalSysex.makeView x1
  let x5 ← UniversalSysex.asIdentityReplyView x4
  let x6 ← UniversalSysex.IdentityReplyView.identity x4
  return x2 && x3.isSome && x5.isSome && decide (8457 = (x6.manufacturer.toNat : Int)) && decide (6144 =
    (x6.family.toNat : Int)) && decide (32 = (x6.model.toNat : Int)) && decide (256 = (x6.revision.toNat : Int)) &&
    (x1.eqv x1)) = true := by decide +kernel

-- universal_sysex,identity_reply: lines 334-345
example : holds (do
  let x1 ← UniversalSysex.makeIdentityReply 4063232 4660 10863 19088743 128
  let x2 ← UniversalSysex.Message.deviceId x1
  let x3 ← UniversalSysex.Message.type x1
  let x4 ← UniversalSysex.Message.subtype x1
  let x5 ← UniversalSysex.isIdentityReply x1
  let x6 ← UniversalSysex.asIdentityReplyView x1
  let x7 ← UniversalSysex.makeView x1
  let x8 ← UniversalSysex.asIdentityReplyView x7
  let x9 ← UniversalSysex.IdentityReplyView.identity x7
  return (UniversalSysex.isUniversal x1) && decide (128 = (x2.toNat : Int)) && decide (32262 = (x3.toNat : Int)) &&
    decide (2 = (x4.toNat : Int)) && x5 && x6.isSome && x8.isSome && decide (4063232 = (x9.manufacturer.toNat : Int))) = true := by decide +kernel

-- universal_sysex,identity_reply: lines 346-364
example : holds (do
  let x1 ← UniversalSysex.makeIdentityReply 4063232 4660 10863 19088743 128
  let x2 ← UniversalSysex.makeView x1
  let x3 ← UniversalSysex.IdentityReplyView.identity x2
  let x4 ← UniversalSysex.makeIdentityReplyOf (⟨4063232, 8870, 15423, 36984440⟩ : DeviceIdentity)
  let x5 ← UniversalSysex.Message.deviceId x4
  let x6 ← UniversalSysex.Message.type x4
  let x7 ← UniversalSysex.Message.subtype x4
  return decide (4660 = (x3.family.toNat : Int)) && decide (10863 = (x3.model.toNat : Int)) && decide (19088743 =
    (x3.revision.toNat : Int)) && (x1.eqv x1) && (UniversalSysex.isUniversal x4) && decide (127 = (x5.toNat : Int)) &&
    decide (32262 = (x6.toNat : Int)) && decide (2 = (x7.toNat : Int))) = true := by decide +kernel

-- universal_sysex,identity_reply: lines 366-376
example : holds (do
  let x1 ← UniversalSysex.makeIdentityReplyOf (⟨4063232, 8870, 15423, 36984440⟩ : DeviceIdentity)
  let x2 ← UniversalSysex.isIdentityReply x1
  let x3 ← UniversalSysex.asIdentityReplyView x1
  let x4 ← UniversalSysex.makeView x1
  let x5 ← UniversalSysex.asIdentityReplyView x4
  let x6 ← UniversalSysex.IdentityReplyView.identity x4
  return x2 && x3.isSome && x5.isSome && decide (4063232 = (x6.manufacturer.toNat : Int)) && decide (8870 =
    (x6.family.toNat : Int)) && decide (15423 = (x6.model.toNat : Int)) && decide (36984440 = (x6.revision.toNat :
    Int)) && (x1.eqv x1)) = true := by decide +kernel

end Midi.Conformance
