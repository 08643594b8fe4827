import Verif.Conformance.Prelude
import Verif.Model.ByteStream
import Verif.Model.CapabilityInquiry
import Verif.Model.Collector
import Verif.Model.Defaults
import Verif.Model.FlexData
import Verif.Model.Jitter
import Verif.Model.PitchTypes
import Verif.Model.Senders
import Verif.Model.Stream
import Verif.Model.Sysex
import Verif.Model.SysexPackets
import Verif.Model.TextFormat
import Verif.Model.Types
import Verif.Model.UniversalSysex
import Verif.Model.Reentrant

/-!
The expectations of tests/value_translation_tests.cpp about the model. Generated by tools/conformance.
-/

namespace Midi.Conformance

open Midi

-- value_translation,downscale_min: lines 26-28
example : holds (do
  return decide (0 = ((downsample16to7 0).toNat : Int)) && decide (0 = ((downsample32to7 0).toNat : Int)) && decide (0
    = ((downsample32to14 0).toNat : Int))) = true := by decide +kernel

-- value_translation,downscale_center: lines 35-37
example : holds (do
  return decide (64 = ((downsample16to7 32768).toNat : Int)) && decide (64 = ((downsample32to7 2147483648).toNat :
    Int)) && decide (8192 = ((downsample32to14 2147483648).toNat : Int))) = true := by decide +kernel

-- value_translation,downscale_max: lines 44-46
example : holds (do
  return decide (127 = ((downsample16to7 65535).toNat : Int)) && decide (127 = ((downsample32to7 4294967295).toNat :
    Int)) && decide (16383 = ((downsample32to14 4294967295).toNat : Int))) = true := by decide +kernel

-- value_translation,upscale_min: lines 53-55
example : holds (do
  let x1 ← upsample14to32 0
  return decide (0 = ((upsample7to16 0).toNat : Int)) && decide (0 = ((upsample7to32 0).toNat : Int)) && decide (0 =
    (x1.toNat : Int))) = true := by decide +kernel

-- value_translation,upscale_center: lines 62-64
example : holds (do
  let x1 ← upsample14to32 8192
  return decide (32768 = ((upsample7to16 64).toNat : Int)) && decide (2147483648 = ((upsample7to32 64).toNat : Int))
    && decide (2147483648 = (x1.toNat : Int))) = true := by decide +kernel

-- value_translation,upscale_max: lines 71-73
example : holds (do
  let x1 ← upsample14to32 16383
  return decide (65535 = ((upsample7to16 127).toNat : Int)) && decide (4294967295 = ((upsample7to32 127).toNat : Int))
    && decide (4294967295 = (x1.toNat : Int))) = true := by decide +kernel

-- value_translation,preserve_7_16_7: line 82
example : holds (do
  return decide (0 = ((downsample16to7 (upsample7to16 0)).toNat : Int)) && decide (11 = ((downsample16to7
    (upsample7to16 11)).toNat : Int)) && decide (23 = ((downsample16to7 (upsample7to16 23)).toNat : Int)) && decide
    (34 = ((downsample16to7 (upsample7to16 34)).toNat : Int)) && decide (46 = ((downsample16to7 (upsample7to16
    46)).toNat : Int)) && decide (57 = ((downsample16to7 (upsample7to16 57)).toNat : Int))) = true := by decide +kernel

-- value_translation,preserve_7_32_7: line 92
example : holds (do
  return decide (0 = ((downsample32to7 (upsample7to32 0)).toNat : Int)) && decide (11 = ((downsample32to7
    (upsample7to32 11)).toNat : Int)) && decide (23 = ((downsample32to7 (upsample7to32 23)).toNat : Int)) && decide
    (34 = ((downsample32to7 (upsample7to32 34)).toNat : Int)) && decide (46 = ((downsample32to7 (upsample7to32
    46)).toNat : Int)) && decide (57 = ((downsample32to7 (upsample7to32 57)).toNat : Int))) = true := by decide +kernel

-- value_translation,preserve_14_32_14: line 102
example : holds (do
  let x1 ← upsample14to32 0
  let x2 ← upsample14to32 1489
  let x3 ← upsample14to32 2978
  let x4 ← upsample14to32 4468
  let x5 ← upsample14to32 5957
  let x6 ← upsample14to32 7446
  return decide (0 = ((downsample32to14 x1).toNat : Int)) && decide (1489 = ((downsample32to14 x2).toNat : Int)) &&
    decide (2978 = ((downsample32to14 x3).toNat : Int)) && decide (4468 = ((downsample32to14 x4).toNat : Int)) &&
    decide (5957 = ((downsample32to14 x5).toNat : Int)) && decide (7446 = ((downsample32to14 x6).toNat : Int))) = true := by decide +kernel

-- value_translation,upsample_x_to_ybit: lines 112-116
example : holds (do
  let x1 ← upsampleXtoY 0 7 16
  let x2 ← upsampleXtoY 11 7 16
  let x3 ← upsampleXtoY 23 7 16
  let x4 ← upsampleXtoY 34 7 16
  let x5 ← upsampleXtoY 46 7 16
  let x6 ← upsampleXtoY 57 7 16
  let x7 ← upsampleXtoY 0 7 32
  let x8 ← upsampleXtoY 11 7 32
  return decide (((upsample7to16 0).toNat : Int) = (x1.toNat : Int)) && decide (((upsample7to16 11).toNat : Int) =
    (x2.toNat : Int)) && decide (((upsample7to16 23).toNat : Int) = (x3.toNat : Int)) && decide (((upsample7to16
    34).toNat : Int) = (x4.toNat : Int)) && decide (((upsample7to16 46).toNat : Int) = (x5.toNat : Int)) && decide
    (((upsample7to16 57).toNat : Int) = (x6.toNat : Int)) && decide (((upsample7to32 0).toNat : Int) = (x7.toNat :
    Int)) && decide (((upsample7to32 11).toNat : Int) = (x8.toNat : Int))) = true := by decide +kernel

-- value_translation,upsample_x_to_ybit: lines 116-120
example : holds (do
  let x1 ← upsampleXtoY 23 7 32
  let x2 ← upsampleXtoY 34 7 32
  let x3 ← upsampleXtoY 46 7 32
  let x4 ← upsampleXtoY 57 7 32
  let x5 ← upsample14to32 0
  let x6 ← upsampleXtoY 0 14 32
  let x7 ← upsample14to32 1489
  let x8 ← upsampleXtoY 1489 14 32
  let x9 ← upsample14to32 2978
  let x10 ← upsampleXtoY 2978 14 32
  let x11 ← upsample14to32 4468
  let x12 ← upsampleXtoY 4468 14 32
  return decide (((upsample7to32 23).toNat : Int) = (x1.toNat : Int)) && decide (((upsample7to32 34).toNat : Int) =
    (x2.toNat : Int)) && decide (((upsample7to32 46).toNat : Int) = (x3.toNat : Int)) && decide (((upsample7to32
    57).toNat : Int) = (x4.toNat : Int)) && decide ((x5.toNat : Int) = (x6.toNat : Int)) && decide ((x7.toNat : Int) =
    (x8.toNat : Int)) && decide ((x9.toNat : Int) = (x10.toNat : Int)) && decide ((x11.toNat : Int) = (x12.toNat :
    Int))) = true := by decide +kernel

-- value_translation,upsample_x_to_ybit: line 120
example : holds (do
  let x1 ← upsample14to32 5957
  let x2 ← upsampleXtoY 5957 14 32
  let x3 ← upsample14to32 7446
  let x4 ← upsampleXtoY 7446 14 32
  return decide ((x1.toNat : Int) = (x2.toNat : Int)) && decide ((x3.toNat : Int) = (x4.toNat : Int))) = true := by decide +kernel

end Midi.Conformance
