import Verif.Conformance.Prelude
import Verif.Model.ByteStream
import Verif.Model.CapabilityInquiry
import Verif.Model.Collector
import Verif.Model.Defaults
import Verif.Model.FlexData
import Verif.Model.Jitter
import Verif.Model.PitchTypes
import Verif.Model.Senders
import Verif.Model.Stream
import Verif.Model.Sysex
import Verif.Model.SysexPackets
import Verif.Model.TextFormat
import Verif.Model.Types
import Verif.Model.UniversalSysex
import Verif.Model.Reentrant

/-!
The expectations of tests/sysex_tests.cpp about the model. Generated by tools/conformance.
-/

namespace Midi.Conformance

open Midi

-- sysex,sysex_constructor: lines 97-110
example : holds (do
  let x1 := (⟨0, []⟩ : Sysex)
  let x2 := (⟨262144, []⟩ : Sysex)
  return decide (0 = (x1.manufacturerID.toNat : Int)) && decide (0 = (x1.data.length : Int)) && decide (0 =
    ((Sysex.totalDataSize x1) : Int)) && (Sysex.empty x1) && (Sysex.is7bit x1) && (!(Sysex.is8bit x1)) && decide
    (262144 = (x2.manufacturerID.toNat : Int)) && decide (0 = (x2.data.length : Int))) = true := by decide +kernel

-- sysex,sysex_constructor: lines 111-124
example : holds (do
  let x1 := (⟨262144, []⟩ : Sysex)
  let x2 := (⟨8457, []⟩ : Sysex)
  return decide (1 = ((Sysex.totalDataSize x1) : Int)) && (!(Sysex.empty x1)) && (Sysex.is7bit x1) && (!(Sysex.is8bit
    x1)) && decide (8457 = (x2.manufacturerID.toNat : Int)) && decide (0 = (x2.data.length : Int)) && decide (3 =
    ((Sysex.totalDataSize x2) : Int)) && (!(Sysex.empty x2))) = true := by decide +kernel

-- sysex,sysex_constructor: lines 125-140
example : holds (do
  let x1 := (⟨8457, []⟩ : Sysex)
  let x2 := (⟨4456448, [1, 2, 3, 4]⟩ : Sysex)
  return (Sysex.is7bit x1) && (!(Sysex.is8bit x1)) && decide (4456448 = (x2.manufacturerID.toNat : Int)) && decide (4
    = (x2.data.length : Int)) && decide (5 = ((Sysex.totalDataSize x2) : Int)) && (!(Sysex.empty x2)) && (Sysex.is7bit
    x2) && (!(Sysex.is8bit x2))) = true := by decide +kernel

-- sysex,sysex_constructor: lines 151-156
example : holds (do
  let x1 := (⟨88, [170, 187, 204, 221, 238, 255]⟩ : Sysex)
  return decide (88 = (x1.manufacturerID.toNat : Int)) && decide (6 = (x1.data.length : Int)) && decide (9 =
    ((Sysex.totalDataSize x1) : Int)) && (!(Sysex.empty x1)) && (!(Sysex.is7bit x1)) && (Sysex.is8bit x1)) = true := by decide +kernel

-- sysex,equality: lines 173-180
example : holds (do
  let x1 := (⟨1245184, []⟩ : Sysex)
  let x2 := (⟨1245184, [1, 2, 3]⟩ : Sysex)
  let x3 := (⟨8224, [1, 2, 3, 4]⟩ : Sysex)
  return (x1.eqv x1) && (x1.neqv x2) && (x1.neqv x3) && (x2.neqv x1) && (x2.eqv x2) && (x2.neqv x3)) = true := by decide +kernel

-- sysex,equality: lines 181-188
example : holds (do
  let x1 := (⟨1245184, []⟩ : Sysex)
  let x2 := (⟨1245184, [1, 2, 3]⟩ : Sysex)
  let x3 := (⟨8224, [1, 2, 3, 4]⟩ : Sysex)
  return (x3.neqv x1) && (x3.neqv x2) && (x3.eqv x3)) = true := by decide +kernel

-- sysex,assignment: lines 200-202
example : holds (do
  let x1 := (⟨1245184, []⟩ : Sysex)
  let x2 := (⟨1245184, [1, 2, 3]⟩ : Sysex)
  return (x1.neqv x2) && (x2.eqv x2)) = true := by decide +kernel

-- sysex,sysex7: lines 216-230
example : holds (do
  let x1 := (⟨8457, [1, 2, 3, 4, 5, 6, 7, 8, 9]⟩ : Sysex)
  let x2 := (⟨8457, [1, 2, 3, 4, 5, 6, 7, 8, 9, 171]⟩ : Sysex)
  return (Sysex.isValid x1) && (Sysex.is7bit x1) && (!(Sysex.is8bit x1)) && (!(Sysex.isValid x2)) && (!(Sysex.is7bit
    x2)) && (Sysex.is8bit x2)) = true := by decide +kernel

-- sysex,sysex7_add_uintX: lines 256-273
example : holds (do
  let x1 := (⟨1193046, []⟩ : Sysex)
  let x2 ← Sysex.addUint7 x1 0
  let x3 ← index x2.data 0
  let x4 ← Sysex.addUint7 x2 99
  let x5 ← index x4.data 1
  let x6 ← Sysex.addUint7 x4 127
  let x7 ← index x6.data 2
  let x8 ← Sysex.addUint14 x1 0
  let x9 ← index x8.data 0
  return decide (1 = (x2.data.length : Int)) && decide (0 = (x3.toNat : Int)) && decide (2 = (x4.data.length : Int))
    && decide (99 = (x5.toNat : Int)) && decide (3 = (x6.data.length : Int)) && decide (127 = (x7.toNat : Int)) &&
    decide (2 = (x8.data.length : Int)) && decide (0 = (x9.toNat : Int))) = true := by decide +kernel

-- sysex,sysex7_add_uintX: lines 274-287
example : holds (do
  let x1 := (⟨1193046, []⟩ : Sysex)
  let x2 ← Sysex.addUint14 x1 0
  let x3 ← index x2.data 1
  let x4 ← Sysex.addUint14 x2 99
  let x5 ← index x4.data 2
  let x6 ← index x4.data 3
  let x7 ← Sysex.addUint14 x4 128
  let x8 ← index x7.data 4
  let x9 ← index x7.data 5
  let x10 ← Sysex.addUint14 x7 16383
  return decide (0 = (x3.toNat : Int)) && decide (4 = (x4.data.length : Int)) && decide (99 = (x5.toNat : Int)) &&
    decide (0 = (x6.toNat : Int)) && decide (6 = (x7.data.length : Int)) && decide (0 = (x8.toNat : Int)) && decide (1
    = (x9.toNat : Int)) && decide (8 = (x10.data.length : Int))) = true := by decide +kernel

-- sysex,sysex7_add_uintX: lines 288-303
example : holds (do
  let x1 := (⟨1193046, []⟩ : Sysex)
  let x2 ← Sysex.addUint14 x1 0
  let x3 ← Sysex.addUint14 x2 99
  let x4 ← Sysex.addUint14 x3 128
  let x5 ← Sysex.addUint14 x4 16383
  let x6 ← index x5.data 6
  let x7 ← index x5.data 7
  let x8 ← Sysex.addUint28 x1 0
  let x9 ← index x8.data 0
  let x10 ← index x8.data 1
  let x11 ← index x8.data 2
  let x12 ← index x8.data 3
  let x13 ← Sysex.addUint28 x8 99
  return decide (127 = (x6.toNat : Int)) && decide (127 = (x7.toNat : Int)) && decide (4 = (x8.data.length : Int)) &&
    decide (0 = (x9.toNat : Int)) && decide (0 = (x10.toNat : Int)) && decide (0 = (x11.toNat : Int)) && decide (0 =
    (x12.toNat : Int)) && decide (8 = (x13.data.length : Int))) = true := by decide +kernel

-- sysex,sysex7_add_uintX: lines 304-313
example : holds (do
  let x1 := (⟨1193046, []⟩ : Sysex)
  let x2 ← Sysex.addUint28 x1 0
  let x3 ← Sysex.addUint28 x2 99
  let x4 ← index x3.data 4
  let x5 ← index x3.data 5
  let x6 ← index x3.data 6
  let x7 ← index x3.data 7
  let x8 ← Sysex.addUint28 x3 128
  let x9 ← index x8.data 8
  let x10 ← index x8.data 9
  let x11 ← index x8.data 10
  return decide (99 = (x4.toNat : Int)) && decide (0 = (x5.toNat : Int)) && decide (0 = (x6.toNat : Int)) && decide (0
    = (x7.toNat : Int)) && decide (12 = (x8.data.length : Int)) && decide (0 = (x9.toNat : Int)) && decide (1 =
    (x10.toNat : Int)) && decide (0 = (x11.toNat : Int))) = true := by decide +kernel

-- sysex,sysex7_add_uintX: lines 314-325
example : holds (do
  let x1 := (⟨1193046, []⟩ : Sysex)
  let x2 ← Sysex.addUint28 x1 0
  let x3 ← Sysex.addUint28 x2 99
  let x4 ← Sysex.addUint28 x3 128
  let x5 ← index x4.data 11
  let x6 ← Sysex.addUint28 x4 16383
  let x7 ← index x6.data 12
  let x8 ← index x6.data 13
  let x9 ← index x6.data 14
  let x10 ← index x6.data 15
  let x11 ← Sysex.addUint28 x6 1193046
  let x12 ← index x11.data 16
  return decide (0 = (x5.toNat : Int)) && decide (16 = (x6.data.length : Int)) && decide (127 = (x7.toNat : Int)) &&
    decide (127 = (x8.toNat : Int)) && decide (0 = (x9.toNat : Int)) && decide (0 = (x10.toNat : Int)) && decide (20 =
    (x11.data.length : Int)) && decide (86 = (x12.toNat : Int))) = true := by decide +kernel

-- sysex,sysex7_add_uintX: lines 326-335
example : holds (do
  let x1 := (⟨1193046, []⟩ : Sysex)
  let x2 ← Sysex.addUint28 x1 0
  let x3 ← Sysex.addUint28 x2 99
  let x4 ← Sysex.addUint28 x3 128
  let x5 ← Sysex.addUint28 x4 16383
  let x6 ← Sysex.addUint28 x5 1193046
  let x7 ← index x6.data 17
  let x8 ← index x6.data 18
  let x9 ← index x6.data 19
  let x10 ← Sysex.addUint28 x6 19088743
  let x11 ← index x10.data 20
  let x12 ← index x10.data 21
  let x13 ← index x10.data 22
  let x14 ← index x10.data 23
  return decide (104 = (x7.toNat : Int)) && decide (72 = (x8.toNat : Int)) && decide (0 = (x9.toNat : Int)) && decide
    (24 = (x10.data.length : Int)) && decide (103 = (x11.toNat : Int)) && decide (10 = (x12.toNat : Int)) && decide
    (13 = (x13.toNat : Int)) && decide (9 = (x14.toNat : Int))) = true := by decide +kernel

-- sysex,sysex7_add_uintX: lines 338-351
example : holds (do
  let x1 := (⟨1193046, []⟩ : Sysex)
  let x2 ← Sysex.addUint28 x1 0
  let x3 ← Sysex.addUint28 x2 99
  let x4 ← Sysex.addUint28 x3 128
  let x5 ← Sysex.addUint28 x4 16383
  let x6 ← Sysex.addUint28 x5 1193046
  let x7 ← Sysex.addUint28 x6 19088743
  let x8 ← Sysex.addUint28 x7 268435455
  let x9 ← index x8.data 24
  let x10 ← index x8.data 25
  let x11 ← index x8.data 26
  let x12 ← index x8.data 27
  let x13 := Sysex.addUint32 x1 0
  let x14 ← index x13.data 0
  let x15 ← index x13.data 1
  return decide (28 = (x8.data.length : Int)) && decide (127 = (x9.toNat : Int)) && decide (127 = (x10.toNat : Int))
    && decide (127 = (x11.toNat : Int)) && decide (127 = (x12.toNat : Int)) && decide (5 = (x13.data.length : Int)) &&
    decide (0 = (x14.toNat : Int)) && decide (0 = (x15.toNat : Int))) = true := by decide +kernel

-- sysex,sysex7_add_uintX: lines 352-361
example : holds (do
  let x1 := (⟨1193046, []⟩ : Sysex)
  let x2 := Sysex.addUint32 x1 0
  let x3 ← index x2.data 2
  let x4 ← index x2.data 3
  let x5 ← index x2.data 4
  let x6 ← Sysex.makeUint32 x2 0
  let x7 := Sysex.addUint32 x2 99
  let x8 ← index x7.data 5
  let x9 ← index x7.data 6
  let x10 ← index x7.data 7
  return decide (0 = (x3.toNat : Int)) && decide (0 = (x4.toNat : Int)) && decide (0 = (x5.toNat : Int)) && decide (0
    = (x6.toNat : Int)) && decide (10 = (x7.data.length : Int)) && decide (99 = (x8.toNat : Int)) && decide (0 =
    (x9.toNat : Int)) && decide (0 = (x10.toNat : Int))) = true := by decide +kernel

-- sysex,sysex7_add_uintX: lines 362-371
example : holds (do
  let x1 := (⟨1193046, []⟩ : Sysex)
  let x2 := Sysex.addUint32 x1 0
  let x3 := Sysex.addUint32 x2 99
  let x4 ← index x3.data 8
  let x5 ← index x3.data 9
  let x6 ← Sysex.makeUint32 x3 5
  let x7 := Sysex.addUint32 x3 128
  let x8 ← index x7.data 10
  let x9 ← index x7.data 11
  let x10 ← index x7.data 12
  let x11 ← index x7.data 13
  return decide (0 = (x4.toNat : Int)) && decide (0 = (x5.toNat : Int)) && decide (99 = (x6.toNat : Int)) && decide
    (15 = (x7.data.length : Int)) && decide (0 = (x8.toNat : Int)) && decide (1 = (x9.toNat : Int)) && decide (0 =
    (x10.toNat : Int)) && decide (0 = (x11.toNat : Int))) = true := by decide +kernel

-- sysex,sysex7_add_uintX: lines 372-381
example : holds (do
  let x1 := (⟨1193046, []⟩ : Sysex)
  let x2 := Sysex.addUint32 x1 0
  let x3 := Sysex.addUint32 x2 99
  let x4 := Sysex.addUint32 x3 128
  let x5 ← index x4.data 14
  let x6 ← Sysex.makeUint32 x4 10
  let x7 := Sysex.addUint32 x4 16383
  let x8 ← index x7.data 15
  let x9 ← index x7.data 16
  let x10 ← index x7.data 17
  let x11 ← index x7.data 18
  let x12 ← index x7.data 19
  return decide (0 = (x5.toNat : Int)) && decide (128 = (x6.toNat : Int)) && decide (20 = (x7.data.length : Int)) &&
    decide (127 = (x8.toNat : Int)) && decide (127 = (x9.toNat : Int)) && decide (0 = (x10.toNat : Int)) && decide (0
    = (x11.toNat : Int)) && decide (0 = (x12.toNat : Int))) = true := by decide +kernel

-- sysex,sysex7_add_uintX: lines 382-391
example : holds (do
  let x1 := (⟨1193046, []⟩ : Sysex)
  let x2 := Sysex.addUint32 x1 0
  let x3 := Sysex.addUint32 x2 99
  let x4 := Sysex.addUint32 x3 128
  let x5 := Sysex.addUint32 x4 16383
  let x6 ← Sysex.makeUint32 x5 15
  let x7 := Sysex.addUint32 x5 1193046
  let x8 ← index x7.data 20
  let x9 ← index x7.data 21
  let x10 ← index x7.data 22
  let x11 ← index x7.data 23
  let x12 ← index x7.data 24
  let x13 ← Sysex.makeUint32 x7 20
  return decide (16383 = (x6.toNat : Int)) && decide (25 = (x7.data.length : Int)) && decide (86 = (x8.toNat : Int))
    && decide (104 = (x9.toNat : Int)) && decide (72 = (x10.toNat : Int)) && decide (0 = (x11.toNat : Int)) && decide
    (0 = (x12.toNat : Int)) && decide (1193046 = (x13.toNat : Int))) = true := by decide +kernel

-- sysex,sysex7_add_uintX: lines 394-403
example : holds (do
  let x1 := (⟨1193046, []⟩ : Sysex)
  let x2 := Sysex.addUint32 x1 0
  let x3 := Sysex.addUint32 x2 99
  let x4 := Sysex.addUint32 x3 128
  let x5 := Sysex.addUint32 x4 16383
  let x6 := Sysex.addUint32 x5 1193046
  let x7 := Sysex.addUint32 x6 19088743
  let x8 ← index x7.data 25
  let x9 ← index x7.data 26
  let x10 ← index x7.data 27
  let x11 ← index x7.data 28
  let x12 ← index x7.data 29
  let x13 ← Sysex.makeUint32 x7 25
  let x14 := Sysex.addUint32 x7 268435455
  return decide (30 = (x7.data.length : Int)) && decide (103 = (x8.toNat : Int)) && decide (10 = (x9.toNat : Int)) &&
    decide (13 = (x10.toNat : Int)) && decide (9 = (x11.toNat : Int)) && decide (0 = (x12.toNat : Int)) && decide
    (19088743 = (x13.toNat : Int)) && decide (35 = (x14.data.length : Int))) = true := by decide +kernel

-- sysex,sysex7_add_uintX: lines 404-413
example : holds (do
  let x1 := (⟨1193046, []⟩ : Sysex)
  let x2 := Sysex.addUint32 x1 0
  let x3 := Sysex.addUint32 x2 99
  let x4 := Sysex.addUint32 x3 128
  let x5 := Sysex.addUint32 x4 16383
  let x6 := Sysex.addUint32 x5 1193046
  let x7 := Sysex.addUint32 x6 19088743
  let x8 := Sysex.addUint32 x7 268435455
  let x9 ← index x8.data 30
  let x10 ← index x8.data 31
  let x11 ← index x8.data 32
  let x12 ← index x8.data 33
  let x13 ← index x8.data 34
  let x14 ← Sysex.makeUint32 x8 30
  let x15 := Sysex.addUint32 x8 4294967295
  let x16 ← index x15.data 35
  return decide (127 = (x9.toNat : Int)) && decide (127 = (x10.toNat : Int)) && decide (127 = (x11.toNat : Int)) &&
    decide (127 = (x12.toNat : Int)) && decide (0 = (x13.toNat : Int)) && decide (268435455 = (x14.toNat : Int)) &&
    decide (40 = (x15.data.length : Int)) && decide (127 = (x16.toNat : Int))) = true := by decide +kernel

-- sysex,sysex7_add_uintX: lines 414-418
example : holds (do
  let x1 := (⟨1193046, []⟩ : Sysex)
  let x2 := Sysex.addUint32 x1 0
  let x3 := Sysex.addUint32 x2 99
  let x4 := Sysex.addUint32 x3 128
  let x5 := Sysex.addUint32 x4 16383
  let x6 := Sysex.addUint32 x5 1193046
  let x7 := Sysex.addUint32 x6 19088743
  let x8 := Sysex.addUint32 x7 268435455
  let x9 := Sysex.addUint32 x8 4294967295
  let x10 ← index x9.data 36
  let x11 ← index x9.data 37
  let x12 ← index x9.data 38
  let x13 ← index x9.data 39
  let x14 ← Sysex.makeUint32 x9 35
  return decide (127 = (x10.toNat : Int)) && decide (127 = (x11.toNat : Int)) && decide (127 = (x12.toNat : Int)) &&
    decide (15 = (x13.toNat : Int)) && decide (4294967295 = (x14.toNat : Int))) = true := by decide +kernel

-- sysex,sysex7_add_device_identity: lines 437-445
example : holds (do
  let x1 := (⟨1193046, [4, 1, 144, 34, 77]⟩ : Sysex)
  let x2 ← Sysex.addDeviceIdentity x1 (⟨8457, 5936, 49, 65541⟩ : DeviceIdentity)
  let x3 ← index x2.data ((x1.data.length : Int) + 0).toNat
  let x4 ← index x2.data ((x1.data.length : Int) + 1).toNat
  let x5 ← index x2.data ((x1.data.length : Int) + 2).toNat
  let x6 ← index x2.data ((x1.data.length : Int) + 3).toNat
  let x7 ← index x2.data ((x1.data.length : Int) + 4).toNat
  let x8 ← index x2.data ((x1.data.length : Int) + 5).toNat
  let x9 ← index x2.data ((x1.data.length : Int) + 6).toNat
  return decide (((x1.data.length : Int) + 11) = (x2.data.length : Int)) && decide (0 = (x3.toNat : Int)) && decide
    (33 = (x4.toNat : Int)) && decide (9 = (x5.toNat : Int)) && decide (48 = (x6.toNat : Int)) && decide (46 =
    (x7.toNat : Int)) && decide (49 = (x8.toNat : Int)) && decide (0 = (x9.toNat : Int))) = true := by decide +kernel

-- sysex,sysex7_add_device_identity: lines 446-465
example : holds (do
  let x1 := (⟨1193046, [4, 1, 144, 34, 77]⟩ : Sysex)
  let x2 ← Sysex.addDeviceIdentity x1 (⟨8457, 5936, 49, 65541⟩ : DeviceIdentity)
  let x3 ← index x2.data ((x1.data.length : Int) + 7).toNat
  let x4 ← index x2.data ((x1.data.length : Int) + 8).toNat
  let x5 ← index x2.data ((x1.data.length : Int) + 9).toNat
  let x6 ← index x2.data ((x1.data.length : Int) + 10).toNat
  let x7 := (⟨4469538, [4, 16, 99, 22, 77]⟩ : Sysex)
  let x8 ← Sysex.addDeviceIdentity x7 (⟨4259840, 2055, 4660, 212436837⟩ : DeviceIdentity)
  let x9 ← index x8.data ((x7.data.length : Int) + 0).toNat
  let x10 ← index x8.data ((x7.data.length : Int) + 1).toNat
  let x11 ← index x8.data ((x7.data.length : Int) + 2).toNat
  return decide (5 = (x3.toNat : Int)) && decide (0 = (x4.toNat : Int)) && decide (4 = (x5.toNat : Int)) && decide (0
    = (x6.toNat : Int)) && decide (((x7.data.length : Int) + 11) = (x8.data.length : Int)) && decide (65 = (x9.toNat :
    Int)) && decide (0 = (x10.toNat : Int)) && decide (0 = (x11.toNat : Int))) = true := by decide +kernel

-- sysex,sysex7_add_device_identity: lines 466-473
example : holds (do
  let x1 := (⟨4469538, [4, 16, 99, 22, 77]⟩ : Sysex)
  let x2 ← Sysex.addDeviceIdentity x1 (⟨4259840, 2055, 4660, 212436837⟩ : DeviceIdentity)
  let x3 ← index x2.data ((x1.data.length : Int) + 3).toNat
  let x4 ← index x2.data ((x1.data.length : Int) + 4).toNat
  let x5 ← index x2.data ((x1.data.length : Int) + 5).toNat
  let x6 ← index x2.data ((x1.data.length : Int) + 6).toNat
  let x7 ← index x2.data ((x1.data.length : Int) + 7).toNat
  let x8 ← index x2.data ((x1.data.length : Int) + 8).toNat
  let x9 ← index x2.data ((x1.data.length : Int) + 9).toNat
  let x10 ← index x2.data ((x1.data.length : Int) + 10).toNat
  return decide (7 = (x3.toNat : Int)) && decide (16 = (x4.toNat : Int)) && decide (52 = (x5.toNat : Int)) && decide
    (36 = (x6.toNat : Int)) && decide (101 = (x7.toNat : Int)) && decide (14 = (x8.toNat : Int)) && decide (38 =
    (x9.toNat : Int)) && decide (101 = (x10.toNat : Int))) = true := by decide +kernel

-- sysex,sysex7_add_device_identity: lines 477-485
example : holds (do
  let x1 := (⟨4469538, [4, 16, 99, 22, 77]⟩ : Sysex)
  let x2 ← Sysex.addDeviceIdentity x1 (⟨4259840, 2055, 4660, 212436837⟩ : DeviceIdentity)
  let x3 ← Sysex.addDeviceIdentity x2 (⟨4259840, 2055, 4660, 212436837⟩ : DeviceIdentity)
  let x4 ← index x3.data ((x1.data.length : Int) + 11).toNat
  let x5 ← index x3.data ((x1.data.length : Int) + 12).toNat
  let x6 ← index x3.data ((x1.data.length : Int) + 13).toNat
  let x7 ← index x3.data ((x1.data.length : Int) + 14).toNat
  let x8 ← index x3.data ((x1.data.length : Int) + 15).toNat
  let x9 ← index x3.data ((x1.data.length : Int) + 16).toNat
  let x10 ← index x3.data ((x1.data.length : Int) + 17).toNat
  return decide (((x1.data.length : Int) + 22) = (x3.data.length : Int)) && decide (65 = (x4.toNat : Int)) && decide
    (0 = (x5.toNat : Int)) && decide (0 = (x6.toNat : Int)) && decide (7 = (x7.toNat : Int)) && decide (16 = (x8.toNat
    : Int)) && decide (52 = (x9.toNat : Int)) && decide (36 = (x10.toNat : Int))) = true := by decide +kernel

-- sysex,sysex7_add_device_identity: lines 486-489
example : holds (do
  let x1 := (⟨4469538, [4, 16, 99, 22, 77]⟩ : Sysex)
  let x2 ← Sysex.addDeviceIdentity x1 (⟨4259840, 2055, 4660, 212436837⟩ : DeviceIdentity)
  let x3 ← Sysex.addDeviceIdentity x2 (⟨4259840, 2055, 4660, 212436837⟩ : DeviceIdentity)
  let x4 ← index x3.data ((x1.data.length : Int) + 18).toNat
  let x5 ← index x3.data ((x1.data.length : Int) + 19).toNat
  let x6 ← index x3.data ((x1.data.length : Int) + 20).toNat
  let x7 ← index x3.data ((x1.data.length : Int) + 21).toNat
  return decide (101 = (x4.toNat : Int)) && decide (14 = (x5.toNat : Int)) && decide (38 = (x6.toNat : Int)) && decide
    (101 = (x7.toNat : Int))) = true := by decide +kernel

-- sysex,sysex7_make_device_identity: lines 509-526
example : holds (do
  let x1 := (⟨86, [4, 1, 9, 9, 22, 77]⟩ : Sysex)
  let x2 ← Sysex.addDeviceIdentity x1 (⟨8457, 5936, 49, 65541⟩ : DeviceIdentity)
  let x3 ← Sysex.makeDeviceIdentity x2 x1.data.length
  let x4 := (⟨7, [4, 25, 9, 34, 77]⟩ : Sysex)
  let x5 ← Sysex.addDeviceIdentity x4 (⟨4259840, 2055, 4660, 5243138⟩ : DeviceIdentity)
  let x6 ← Sysex.addDeviceIdentity x5 (⟨4259840, 2055, 4660, 5243138⟩ : DeviceIdentity)
  let x7 ← Sysex.makeDeviceIdentity x6 x4.data.length
  let x8 ← Sysex.makeDeviceIdentity x6 ((x4.data.length : Int) + 11).toNat
  return decide (0 = (if (⟨8457, 5936, 49, 65541⟩ : DeviceIdentity) = x3 then 0 else 1)) && decide (0 = (if (⟨4259840,
    2055, 4660, 5243138⟩ : DeviceIdentity) = x7 then 0 else 1)) && decide (0 = (if (⟨4259840, 2055, 4660, 5243138⟩ :
    DeviceIdentity) = x8 then 0 else 1))) = true := by decide +kernel

-- sysex,operators: lines 540-548
example : holds (do
  let x1 := (⟨7, [4, 25, 9, 34, 77]⟩ : Sysex)
  let x2 := (⟨7, [4, 25, 99, 34, 77]⟩ : Sysex)
  let x3 := (⟨1193046, [4, 1, 144, 34, 77]⟩ : Sysex)
  let x4 := (⟨1193046, [4, 17, 144, 34, 77]⟩ : Sysex)
  return (x1.eqv x1) && (x1.neqv x2) && (x1.neqv x3) && (x1.neqv x4) && (x2.neqv x1) && (x2.eqv x2) && (x2.neqv x3) &&
    (x2.neqv x4)) = true := by decide +kernel

-- sysex,operators: lines 550-558
example : holds (do
  let x1 := (⟨7, [4, 25, 9, 34, 77]⟩ : Sysex)
  let x2 := (⟨7, [4, 25, 99, 34, 77]⟩ : Sysex)
  let x3 := (⟨1193046, [4, 1, 144, 34, 77]⟩ : Sysex)
  let x4 := (⟨1193046, [4, 17, 144, 34, 77]⟩ : Sysex)
  return (x3.neqv x1) && (x3.neqv x2) && (x3.eqv x3) && (x4.neqv x1) && (x4.neqv x2) && (x4.neqv x3) && (x4.eqv x4)) = true := by decide +kernel

-- sysex,operators: lines 567-575
example : holds (do
  let x1 := (⟨7, [4, 25, 9, 34, 77]⟩ : Sysex)
  let x2 := (⟨7, [4, 25, 99, 34, 77]⟩ : Sysex)
  let x3 := (⟨1193046, [4, 1, 144, 34, 77]⟩ : Sysex)
  let x4 := (⟨1193046, [4, 17, 144, 34, 77]⟩ : Sysex)
  return (x1.eqv x1) && (x1.neqv x2) && (x1.neqv x3) && (x1.neqv x4) && (x2.neqv x1) && (x2.eqv x2) && (x2.neqv x3) &&
    (x2.neqv x4)) = true := by decide +kernel

-- sysex,operators: lines 577-585
example : holds (do
  let x1 := (⟨7, [4, 25, 9, 34, 77]⟩ : Sysex)
  let x2 := (⟨7, [4, 25, 99, 34, 77]⟩ : Sysex)
  let x3 := (⟨1193046, [4, 1, 144, 34, 77]⟩ : Sysex)
  let x4 := (⟨1193046, [4, 17, 144, 34, 77]⟩ : Sysex)
  return (x3.neqv x1) && (x3.neqv x2) && (x3.eqv x3) && (x3.neqv x4) && (x4.neqv x1) && (x4.neqv x2) && (x4.neqv x3)
    && (x4.eqv x4)) = true := by decide +kernel

end Midi.Conformance
