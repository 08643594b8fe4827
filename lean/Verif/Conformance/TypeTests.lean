import Verif.Conformance.Prelude
import Verif.Model.ByteStream
import Verif.Model.CapabilityInquiry
import Verif.Model.Collector
import Verif.Model.Defaults
import Verif.Model.FlexData
import Verif.Model.Jitter
import Verif.Model.PitchTypes
import Verif.Model.Senders
import Verif.Model.Stream
import Verif.Model.Sysex
import Verif.Model.SysexPackets
import Verif.Model.TextFormat
import Verif.Model.Types
import Verif.Model.UniversalSysex
import Verif.Model.Reentrant

/-!
The expectations of tests/type_tests.cpp about the model. Generated by tools/conformance.
-/

namespace Midi.Conformance

open Midi

-- velocity,default_constructor: line 34
example : holds (do
  return decide (32768 = ((defaultVelocity).toNat : Int))) = true := by decide +kernel

-- velocity,construct_from_uint16: lines 46-76
example : holds (do
  return decide (0 = ((0 : U16).toNat : Int)) && decide (4660 = ((4660 : U16).toNat : Int)) && decide (18467 = ((18467
    : U16).toNat : Int)) && decide (32768 = ((32768 : U16).toNat : Int)) && decide (51902 = ((51902 : U16).toNat :
    Int)) && decide (65535 = ((65535 : U16).toNat : Int))) = true := by decide +kernel

-- velocity,construct_from_uint7: lines 89-119
example : holds (do
  return decide (0 = ((velocityOf7 0).toNat : Int)) && decide (9216 = ((velocityOf7 18).toNat : Int)) && decide (26624
    = ((velocityOf7 52).toNat : Int)) && decide (32768 = ((velocityOf7 64).toNat : Int)) && decide (42650 =
    ((velocityOf7 83).toNat : Int)) && decide (65535 = ((velocityOf7 127).toNat : Int))) = true := by decide +kernel

-- velocity,construct_from_float: lines 132-169
example : holds (do
  let x1 ← Fp.velocityOf (Fp.ofRat Fp.single (0 / 1))
  let x2 ← Fp.velocityOf (Fp.ofRat Fp.single (1 / 100000))
  let x3 ← Fp.velocityOf (Fp.ofRat Fp.single (1 / 50000))
  let x4 ← Fp.velocityOf (Fp.ofRat Fp.single (1 / 8))
  let x5 ← Fp.velocityOf (Fp.ofRat Fp.single (1 / 5))
  let x6 ← Fp.velocityOf (Fp.ofRat Fp.single (1 / 4))
  let x7 ← Fp.velocityOf (Fp.ofRat Fp.single (1 / 2))
  return decide (0 = (x1.toNat : Int)) && decide (0 = (x2.toNat : Int)) && decide (0 < (x3.toNat : Int)) && decide
    (8192 = (x4.toNat : Int)) && decide (12288 < (x5.toNat : Int)) && decide (14336 > (x5.toNat : Int)) && decide
    (16384 = (x6.toNat : Int)) && decide (32768 = (x7.toNat : Int))) = true := by decide +kernel

-- velocity,construct_from_float: lines 175-217
example : holds (do
  let x1 ← Fp.velocityOf (Fp.ofRat Fp.single (3 / 4))
  let x2 ← Fp.velocityOf (Fp.ofRat Fp.single (9999 / 10000))
  let x3 ← Fp.velocityOf (Fp.ofRat Fp.single (1 / 1))
  let x4 ← Fp.velocityOf (Fp.ofRat Fp.single (-1 / 100))
  let x5 ← Fp.velocityOf (Fp.ofRat Fp.single (-4 / 5))
  let x6 ← Fp.velocityOf (Fp.ofRat Fp.single (-99 / 1))
  let x7 ← Fp.velocityOf (Fp.ofRat Fp.single (101 / 100))
  let x8 ← Fp.velocityOf (Fp.ofRat Fp.single (42 / 1))
  return decide (49151 = (x1.toNat : Int)) && decide (65535 > (x2.toNat : Int)) && decide (65535 = (x3.toNat : Int))
    && decide (0 = (x4.toNat : Int)) && decide (0 = (x5.toNat : Int)) && decide (0 = (x6.toNat : Int)) && decide
    (65535 = (x7.toNat : Int)) && decide (65535 = (x8.toNat : Int))) = true := by decide +kernel

-- velocity,construct_from_double: lines 230-267
example : holds (do
  let x1 ← Fp.velocityOf (Fp.ofRat Fp.double (0 / 1))
  let x2 ← Fp.velocityOf (Fp.ofRat Fp.double (1 / 100000))
  let x3 ← Fp.velocityOf (Fp.ofRat Fp.double (1 / 50000))
  let x4 ← Fp.velocityOf (Fp.ofRat Fp.double (1 / 8))
  let x5 ← Fp.velocityOf (Fp.ofRat Fp.double (1 / 5))
  let x6 ← Fp.velocityOf (Fp.ofRat Fp.double (1 / 4))
  let x7 ← Fp.velocityOf (Fp.ofRat Fp.double (1 / 2))
  return decide (0 = (x1.toNat : Int)) && decide (0 = (x2.toNat : Int)) && decide (0 < (x3.toNat : Int)) && decide
    (8192 = (x4.toNat : Int)) && decide (12288 < (x5.toNat : Int)) && decide (14336 > (x5.toNat : Int)) && decide
    (16384 = (x6.toNat : Int)) && decide (32768 = (x7.toNat : Int))) = true := by decide +kernel

-- velocity,construct_from_double: lines 273-315
example : holds (do
  let x1 ← Fp.velocityOf (Fp.ofRat Fp.double (3 / 4))
  let x2 ← Fp.velocityOf (Fp.ofRat Fp.double (9999 / 10000))
  let x3 ← Fp.velocityOf (Fp.ofRat Fp.double (1 / 1))
  let x4 ← Fp.velocityOf (Fp.ofRat Fp.double (-1 / 100))
  let x5 ← Fp.velocityOf (Fp.ofRat Fp.double (-4 / 5))
  let x6 ← Fp.velocityOf (Fp.ofRat Fp.double (-99 / 1))
  let x7 ← Fp.velocityOf (Fp.ofRat Fp.double (101 / 100))
  let x8 ← Fp.velocityOf (Fp.ofRat Fp.double (42 / 1))
  return decide (49151 = (x1.toNat : Int)) && decide (65535 > (x2.toNat : Int)) && decide (65535 = (x3.toNat : Int))
    && decide (0 = (x4.toNat : Int)) && decide (0 = (x5.toNat : Int)) && decide (0 = (x6.toNat : Int)) && decide
    (65535 = (x7.toNat : Int)) && decide (65535 = (x8.toNat : Int))) = true := by decide +kernel

-- velocity,equality: lines 325-333
example : holds (do
  return decide ((defaultVelocity) = (defaultVelocity)) && decide ((velocityOf7 0) = (0 : U16)) && decide
    ((velocityOf7 64) = (32768 : U16)) && decide ((velocityOf7 96) = (49412 : U16)) && decide ((velocityOf7 127) =
    (65535 : U16)) && !decide ((velocityOf7 0) = (velocityOf7 64)) && !decide ((velocityOf7 64) = (65535 : U16)) &&
    !decide ((65535 : U16) = (32768 : U16))) = true := by decide +kernel

-- velocity,as_float: lines 342-345
example : holds (do
  return almost Fp.single (Fp.ofRat Fp.single (0 / 1)) (Fp.velocityAs Fp.single (velocityOf7 0)) && almost Fp.single
    (Fp.ofRat Fp.single (1 / 4)) (Fp.velocityAs Fp.single (velocityOf7 32)) && almost Fp.single (Fp.ofRat Fp.single (1
    / 2)) (Fp.velocityAs Fp.single (32768 : U16)) && almost Fp.single (Fp.ofRat Fp.single (1 / 1)) (Fp.velocityAs
    Fp.single (65535 : U16))) = true := by decide +kernel

-- velocity,as_double: lines 354-357
example : holds (do
  return almost Fp.double (Fp.ofRat Fp.double (0 / 1)) (Fp.velocityAs Fp.double (velocityOf7 0)) && almost Fp.double
    (Fp.ofRat Fp.double (1 / 4)) (Fp.velocityAs Fp.double (velocityOf7 32)) && almost Fp.double (Fp.ofRat Fp.double (1
    / 2)) (Fp.velocityAs Fp.double (32768 : U16)) && almost Fp.double (Fp.ofRat Fp.double (1 / 1)) (Fp.velocityAs
    Fp.double (65535 : U16))) = true := by decide +kernel

-- velocity,as_uint7: lines 366-371
example : holds (do
  return decide (0 = ((velocityAs7 (0 : U16)).toNat : Int)) && decide (16 = ((velocityAs7 (8192 : U16)).toNat : Int))
    && decide (32 = ((velocityAs7 (16384 : U16)).toNat : Int)) && decide (64 = ((velocityAs7 (32768 : U16)).toNat :
    Int)) && decide (96 = ((velocityAs7 (49152 : U16)).toNat : Int)) && decide (127 = ((velocityAs7 (65535 :
    U16)).toNat : Int))) = true := by decide +kernel

-- velocity,symmetric_float_conversions: lines 385-386
example : holds (do
  let x1 ← Fp.velocityOf (Fp.velocityAs Fp.single (velocityOf7 0))
  let x2 ← Fp.velocityOf (Fp.velocityAs Fp.double (velocityOf7 0))
  let x3 ← Fp.velocityOf (Fp.velocityAs Fp.single (velocityOf7 11))
  let x4 ← Fp.velocityOf (Fp.velocityAs Fp.double (velocityOf7 11))
  let x5 ← Fp.velocityOf (Fp.velocityAs Fp.single (velocityOf7 23))
  let x6 ← Fp.velocityOf (Fp.velocityAs Fp.double (velocityOf7 23))
  let x7 ← Fp.velocityOf (Fp.velocityAs Fp.single (velocityOf7 34))
  let x8 ← Fp.velocityOf (Fp.velocityAs Fp.double (velocityOf7 34))
  return decide ((velocityOf7 0) = x1) && decide ((velocityOf7 0) = x2) && decide ((velocityOf7 11) = x3) && decide
    ((velocityOf7 11) = x4) && decide ((velocityOf7 23) = x5) && decide ((velocityOf7 23) = x6) && decide
    ((velocityOf7 34) = x7) && decide ((velocityOf7 34) = x8)) = true := by decide +kernel

-- velocity,symmetric_float_conversions: lines 385-396
example : holds (do
  let x1 ← Fp.velocityOf (Fp.velocityAs Fp.single (velocityOf7 46))
  let x2 ← Fp.velocityOf (Fp.velocityAs Fp.double (velocityOf7 46))
  let x3 ← Fp.velocityOf (Fp.velocityAs Fp.single (velocityOf7 57))
  let x4 ← Fp.velocityOf (Fp.velocityAs Fp.double (velocityOf7 57))
  let x5 ← Fp.velocityOf (Fp.velocityAs Fp.single (0 : U16))
  let x6 ← Fp.velocityOf (Fp.velocityAs Fp.double (0 : U16))
  let x7 ← Fp.velocityOf (Fp.velocityAs Fp.single (5957 : U16))
  let x8 ← Fp.velocityOf (Fp.velocityAs Fp.double (5957 : U16))
  return decide ((velocityOf7 46) = x1) && decide ((velocityOf7 46) = x2) && decide ((velocityOf7 57) = x3) && decide
    ((velocityOf7 57) = x4) && decide (((0 : U16).toNat : Int) = (x5.toNat : Int)) && decide (((0 : U16).toNat : Int)
    = (x6.toNat : Int)) && decide (((5957 : U16).toNat : Int) = (x7.toNat : Int)) && decide (((5957 : U16).toNat :
    Int) = (x8.toNat : Int))) = true := by decide +kernel

-- velocity,symmetric_float_conversions: lines 395-396
example : holds (do
  let x1 ← Fp.velocityOf (Fp.velocityAs Fp.single (11915 : U16))
  let x2 ← Fp.velocityOf (Fp.velocityAs Fp.double (11915 : U16))
  let x3 ← Fp.velocityOf (Fp.velocityAs Fp.single (17872 : U16))
  let x4 ← Fp.velocityOf (Fp.velocityAs Fp.double (17872 : U16))
  let x5 ← Fp.velocityOf (Fp.velocityAs Fp.single (23830 : U16))
  let x6 ← Fp.velocityOf (Fp.velocityAs Fp.double (23830 : U16))
  let x7 ← Fp.velocityOf (Fp.velocityAs Fp.single (29788 : U16))
  let x8 ← Fp.velocityOf (Fp.velocityAs Fp.double (29788 : U16))
  return decide (((11915 : U16).toNat : Int) = (x1.toNat : Int)) && decide (((11915 : U16).toNat : Int) = (x2.toNat :
    Int)) && decide (((17872 : U16).toNat : Int) = (x3.toNat : Int)) && decide (((17872 : U16).toNat : Int) =
    (x4.toNat : Int)) && decide (((23830 : U16).toNat : Int) = (x5.toNat : Int)) && decide (((23830 : U16).toNat :
    Int) = (x6.toNat : Int)) && decide (((29788 : U16).toNat : Int) = (x7.toNat : Int)) && decide (((29788 :
    U16).toNat : Int) = (x8.toNat : Int))) = true := by decide +kernel

-- pitch_bend,default_constructor: line 408
example : holds (do
  return decide (2147483648 = ((defaultPitchBend).toNat : Int))) = true := by decide +kernel

-- pitch_bend,construct_from_uint32: lines 420-444
example : holds (do
  return decide (0 = ((0 : Word).toNat : Int)) && decide (305419896 = ((305419896 : Word).toNat : Int)) && decide
    (2147483648 = ((2147483648 : Word).toNat : Int)) && decide (3452816845 = ((3452816845 : Word).toNat : Int)) &&
    decide (4294967295 = ((4294967295 : Word).toNat : Int))) = true := by decide +kernel

-- pitch_bend,construct_from_uint14: lines 457-481
example : holds (do
  let x1 ← pitchBendOf14 0
  let x2 ← pitchBendOf14 4660
  let x3 ← pitchBendOf14 8192
  let x4 ← pitchBendOf14 10811
  let x5 ← pitchBendOf14 16383
  return decide (0 = (x1.toNat : Int)) && decide (1221591040 = (x2.toNat : Int)) && decide (2147483648 = (x3.toNat :
    Int)) && decide (2834122602 = (x4.toNat : Int)) && decide (4294967295 = (x5.toNat : Int))) = true := by decide +kernel

-- pitch_bend,construct_from_float: lines 494-536
example : holds (do
  let x1 ← Fp.pitchBendOf Fp.single (Fp.ofRat Fp.single (-1 / 1))
  let x2 ← Fp.pitchBendOf Fp.single (Fp.ofRat Fp.single (-1 / 2))
  let x3 ← Fp.pitchBendOf Fp.single (Fp.ofRat Fp.single (0 / 1))
  let x4 ← Fp.pitchBendOf Fp.single (Fp.ofRat Fp.single (1 / 2))
  let x5 ← Fp.pitchBendOf Fp.single (Fp.ofRat Fp.single (1 / 1))
  let x6 ← Fp.pitchBendOf Fp.single (Fp.ofRat Fp.single (-51 / 50))
  let x7 ← Fp.pitchBendOf Fp.single (Fp.ofRat Fp.single (-8 / 5))
  let x8 ← Fp.pitchBendOf Fp.single (Fp.ofRat Fp.single (-73 / 1))
  return decide (0 = (x1.toNat : Int)) && decide (1073741824 = (x2.toNat : Int)) && decide (2147483648 = (x3.toNat :
    Int)) && decide (3221225471 = (x4.toNat : Int)) && decide (4294967295 = (x5.toNat : Int)) && decide (0 = (x6.toNat
    : Int)) && decide (0 = (x7.toNat : Int)) && decide (0 = (x8.toNat : Int))) = true := by decide +kernel

-- pitch_bend,construct_from_float: lines 542-548
example : holds (do
  let x1 ← Fp.pitchBendOf Fp.single (Fp.ofRat Fp.single (26 / 25))
  let x2 ← Fp.pitchBendOf Fp.single (Fp.ofRat Fp.single (99 / 1))
  return decide (4294967295 = (x1.toNat : Int)) && decide (4294967295 = (x2.toNat : Int))) = true := by decide +kernel

-- pitch_bend,construct_from_double: lines 561-603
example : holds (do
  let x1 ← Fp.pitchBendOf Fp.double (Fp.ofRat Fp.double (-1 / 1))
  let x2 ← Fp.pitchBendOf Fp.double (Fp.ofRat Fp.double (-1 / 2))
  let x3 ← Fp.pitchBendOf Fp.double (Fp.ofRat Fp.double (0 / 1))
  let x4 ← Fp.pitchBendOf Fp.double (Fp.ofRat Fp.double (1 / 2))
  let x5 ← Fp.pitchBendOf Fp.double (Fp.ofRat Fp.double (1 / 1))
  let x6 ← Fp.pitchBendOf Fp.double (Fp.ofRat Fp.double (-51 / 50))
  let x7 ← Fp.pitchBendOf Fp.double (Fp.ofRat Fp.double (26 / 25))
  let x8 ← Fp.pitchBendOf Fp.double (Fp.ofRat Fp.double (99 / 1))
  return decide (0 = (x1.toNat : Int)) && decide (1073741824 = (x2.toNat : Int)) && decide (2147483648 = (x3.toNat :
    Int)) && decide (3221225471 = (x4.toNat : Int)) && decide (4294967295 = (x5.toNat : Int)) && decide (0 = (x6.toNat
    : Int)) && decide (4294967295 = (x7.toNat : Int)) && decide (4294967295 = (x8.toNat : Int))) = true := by decide +kernel

-- pitch_bend,equality: lines 613-621
example : holds (do
  let x1 ← pitchBendOf14 0
  let x2 ← pitchBendOf14 8192
  let x3 ← pitchBendOf14 12288
  let x4 ← pitchBendOf14 16383
  return decide ((defaultPitchBend) = (defaultPitchBend)) && decide (x1 = (0 : Word)) && decide (x2 = (2147483648 :
    Word)) && decide (x3 = (3221356560 : Word)) && decide (x4 = (4294967295 : Word)) && !decide (x1 = x2) && !decide
    (x2 = (65535 : Word)) && !decide ((65535 : Word) = (32768 : Word))) = true := by decide +kernel

-- pitch_bend,as_float: lines 630-634
example : holds (do
  return almost Fp.single (Fp.ofRat Fp.single (-1 / 1)) (Fp.pitchBendAsFloat (0 : Word)) && almost Fp.single (Fp.ofRat
    Fp.single (-1 / 2)) (Fp.pitchBendAsFloat (1073741824 : Word)) && almost Fp.single (Fp.ofRat Fp.single (0 / 1))
    (Fp.pitchBendAsFloat (2147483648 : Word)) && almost Fp.single (Fp.ofRat Fp.single (1 / 2)) (Fp.pitchBendAsFloat
    (3221225471 : Word)) && almost Fp.single (Fp.ofRat Fp.single (1 / 1)) (Fp.pitchBendAsFloat (4294967295 : Word))) = true := by decide +kernel

-- pitch_bend,as_double: lines 643-647
example : holds (do
  return almost Fp.double (Fp.ofRat Fp.double (-1 / 1)) (Fp.pitchBendAsDouble (0 : Word)) && almost Fp.double
    (Fp.ofRat Fp.double (-1 / 2)) (Fp.pitchBendAsDouble (1073741824 : Word)) && almost Fp.double (Fp.ofRat Fp.double
    (0 / 1)) (Fp.pitchBendAsDouble (2147483648 : Word)) && near (1 / 100000000) (Fp.ofRat Fp.double (1 / 2))
    (Fp.pitchBendAsDouble (3221225471 : Word)) && almost Fp.double (Fp.ofRat Fp.double (1 / 1)) (Fp.pitchBendAsDouble
    (4294967295 : Word))) = true := by decide +kernel

-- pitch_bend,as_uint14: lines 656-660
example : holds (do
  return decide (0 = ((pitchBendAs14 (0 : Word)).toNat : Int)) && decide (1165 = ((pitchBendAs14 (305419896 :
    Word)).toNat : Int)) && decide (8192 = ((pitchBendAs14 (2147483648 : Word)).toNat : Int)) && decide (13171 =
    ((pitchBendAs14 (3452816845 : Word)).toNat : Int)) && decide (16383 = ((pitchBendAs14 (4294967295 : Word)).toNat :
    Int))) = true := by decide +kernel

-- pitch_bend,reset: line 673
example : holds (do
  let x1 ← Fp.pitchBendOf Fp.single (Fp.ofRat Fp.single (-11 / 25))
  return decide (2147483648 = ((pitchBendReset x1).toNat : Int))) = true := by decide +kernel

-- pitch_bend,symmetric_double_conversions: lines 686-693
example : holds (do
  let x1 ← pitchBendOf14 0
  let x2 ← Fp.pitchBendOf Fp.double (Fp.pitchBendAsDouble x1)
  let x3 ← pitchBendOf14 1489
  let x4 ← Fp.pitchBendOf Fp.double (Fp.pitchBendAsDouble x3)
  let x5 ← pitchBendOf14 2978
  let x6 ← Fp.pitchBendOf Fp.double (Fp.pitchBendAsDouble x5)
  let x7 ← pitchBendOf14 4467
  let x8 ← Fp.pitchBendOf Fp.double (Fp.pitchBendAsDouble x7)
  let x9 ← pitchBendOf14 5957
  let x10 ← Fp.pitchBendOf Fp.double (Fp.pitchBendAsDouble x9)
  let x11 ← pitchBendOf14 7446
  let x12 ← Fp.pitchBendOf Fp.double (Fp.pitchBendAsDouble x11)
  let x13 ← Fp.pitchBendOf Fp.double (Fp.pitchBendAsDouble (0 : Word))
  let x14 ← Fp.pitchBendOf Fp.double (Fp.pitchBendAsDouble (29651580 : Word))
  return decide (x1 = x2) && decide (x3 = x4) && decide (x5 = x6) && decide (x7 = x8) && decide (x9 = x10) && decide
    (x11 = x12) && decide (((0 : Word).toNat : Int) = (x13.toNat : Int)) && decide (((29651580 : Word).toNat : Int) =
    (x14.toNat : Int))) = true := by decide +kernel

-- pitch_bend,symmetric_double_conversions: line 693
example : holds (do
  let x1 ← Fp.pitchBendOf Fp.double (Fp.pitchBendAsDouble (59307820 : Word))
  let x2 ← Fp.pitchBendOf Fp.double (Fp.pitchBendAsDouble (88959400 : Word))
  let x3 ← Fp.pitchBendOf Fp.double (Fp.pitchBendAsDouble (118615640 : Word))
  let x4 ← Fp.pitchBendOf Fp.double (Fp.pitchBendAsDouble (148271880 : Word))
  return decide (((59307820 : Word).toNat : Int) = (x1.toNat : Int)) && decide (((88959400 : Word).toNat : Int) =
    (x2.toNat : Int)) && decide (((118615640 : Word).toNat : Int) = (x3.toNat : Int)) && decide (((148271880 :
    Word).toNat : Int) = (x4.toNat : Int))) = true := by decide +kernel

-- pitch_increment,default_constructor: line 702
example : holds (do
  return decide (0 = (0 : Word).toInt)) = true := by decide +kernel

-- pitch_increment,construct_from_int32: lines 714-738
example : holds (do
  return decide (99 = (99 : Word).toInt) && decide (305419896 = (305419896 : Word).toInt) && decide (1216907400 =
    (1216907400 : Word).toInt) && decide (2147483647 = (2147483647 : Word).toInt) && decide ((-778899) = (4294188397 :
    Word).toInt)) = true := by decide +kernel

-- pitch_increment,construct_from_float: lines 753-795
example : holds (do
  let x1 ← Fp.pitchIncrementOfFloat (Fp.ofRat Fp.single (0 / 1))
  let x2 ← Fp.pitchIncrementOfFloat (Fp.ofRat Fp.single (1 / 1))
  let x3 ← Fp.pitchIncrementOfFloat (Fp.ofRat Fp.single (-1 / 1))
  let x4 ← Fp.pitchIncrementOfFloat (Fp.ofRat Fp.single (1 / 2))
  let x5 ← Fp.pitchIncrementOfFloat (Fp.ofRat Fp.single (-4 / 1))
  let x6 ← Fp.pitchIncrementOfFloat (Fp.ofRat Fp.single (69 / 4))
  let x7 ← Fp.pitchIncrementOfFloat (Fp.ofRat Fp.single (-191 / 4))
  let x8 ← Fp.pitchIncrementOfFloat (Fp.ofRat Fp.single (63999999 / 1000000))
  return decide (0 = x1.toInt) && decide (33554432 = x2.toInt) && decide ((-33554432) = x3.toInt) && decide (16777216
    = x4.toInt) && decide ((-134217728) = x5.toInt) && decide (578813952 = x6.toInt) && decide ((-1602224128) =
    x7.toInt) && decide (2147483647 = x8.toInt)) = true := by decide +kernel

-- pitch_increment,construct_from_float: lines 801-807
example : holds (do
  let x1 ← Fp.pitchIncrementOfFloat (Fp.ofRat Fp.single (67 / 1))
  let x2 ← Fp.pitchIncrementOfFloat (Fp.ofRat Fp.single (-9923 / 100))
  return decide (2147483647 = x1.toInt) && decide ((-2147483648) = x2.toInt)) = true := by decide +kernel

-- pitch_increment,construct_from_double: lines 822-864
example : holds (do
  let x1 ← Fp.pitchIncrementOfDouble (Fp.ofRat Fp.double (0 / 1))
  let x2 ← Fp.pitchIncrementOfDouble (Fp.ofRat Fp.double (1 / 1))
  let x3 ← Fp.pitchIncrementOfDouble (Fp.ofRat Fp.double (-1 / 1))
  let x4 ← Fp.pitchIncrementOfDouble (Fp.ofRat Fp.double (1 / 2))
  let x5 ← Fp.pitchIncrementOfDouble (Fp.ofRat Fp.double (-4 / 1))
  let x6 ← Fp.pitchIncrementOfDouble (Fp.ofRat Fp.double (69 / 4))
  let x7 ← Fp.pitchIncrementOfDouble (Fp.ofRat Fp.double (-191 / 4))
  let x8 ← Fp.pitchIncrementOfDouble (Fp.ofRat Fp.double (6399999999 / 100000000))
  return decide (0 = x1.toInt) && decide (33554432 = x2.toInt) && decide ((-33554432) = x3.toInt) && decide (16777216
    = x4.toInt) && decide ((-134217728) = x5.toInt) && decide (578813952 = x6.toInt) && decide ((-1602224128) =
    x7.toInt) && decide (2147483647 = x8.toInt)) = true := by decide +kernel

-- pitch_increment,construct_from_double: lines 870-876
example : holds (do
  let x1 ← Fp.pitchIncrementOfDouble (Fp.ofRat Fp.double (67 / 1))
  let x2 ← Fp.pitchIncrementOfDouble (Fp.ofRat Fp.double (-9923 / 100))
  return decide (2147483647 = x1.toInt) && decide ((-2147483648) = x2.toInt)) = true := by decide +kernel

-- pitch_increment,operator_plus_assign: lines 896-953
example : holds (do
  let x1 ← pitchIncAddAssign (16777216 : Word) (8388608 : Word)
  let x2 ← pitchIncAddAssign (8388608 : Word) (25165824 : Word)
  let x3 ← pitchIncAddAssign (33554432 : Word) (4286578688 : Word)
  let x4 ← pitchIncAddAssign (8388608 : Word) (4261412864 : Word)
  let x5 ← Fp.pitchIncrementOfFloat (Fp.ofRat Fp.single (35 / 4))
  let x6 ← Fp.pitchIncrementOfFloat (Fp.ofRat Fp.single (9 / 4))
  let x7 ← pitchIncAddAssign x5 x6
  let x8 ← Fp.pitchIncrementOfFloat (Fp.ofRat Fp.single (-9 / 4))
  let x9 ← pitchIncAddAssign x5 x8
  let x10 ← Fp.pitchIncrementOfFloat (Fp.ofRat Fp.single (25 / 2))
  let x11 ← Fp.pitchIncrementOfFloat (Fp.ofRat Fp.single (-25 / 1))
  let x12 ← pitchIncAddAssign x10 x11
  let x13 ← pitchIncAddAssign (2147483649 : Word) (4294967294 : Word)
  return decide (25165824 = x1.toInt) && decide (33554432 = x2.toInt) && decide (25165824 = x3.toInt) && decide
    ((-25165824) = x4.toInt) && decide (369098752 = x7.toInt) && decide (218103808 = x9.toInt) && decide ((-419430400)
    = x12.toInt) && decide ((-2147483648) = x13.toInt)) = true := by decide +kernel

-- pitch_increment,operator_plus_assign: line 962
example : holds (do
  let x1 ← pitchIncAddAssign (2147471302 : Word) (12346 : Word)
  return decide (2147483647 = x1.toInt)) = true := by decide +kernel

-- pitch_increment,operator_plus: lines 977-987
example : holds (do
  let x1 ← pitchIncAdd (4278190080 : Word) (16777216 : Word)
  let x2 ← pitchIncAdd (8388608 : Word) (25165824 : Word)
  let x3 ← pitchIncAdd (8388608 : Word) (8388608 : Word)
  let x4 ← pitchIncAdd x3 (8388608 : Word)
  let x5 ← pitchIncAdd (8388608 : Word) (4261412864 : Word)
  let x6 ← Fp.pitchIncrementOfFloat (Fp.ofRat Fp.single (15 / 1))
  let x7 ← Fp.pitchIncrementOfFloat (Fp.ofRat Fp.single (25 / 2))
  let x8 ← Fp.pitchIncrementOfFloat (Fp.ofRat Fp.single (5 / 2))
  let x9 ← pitchIncAdd x7 x8
  let x10 ← Fp.pitchIncrementOfFloat (Fp.ofRat Fp.single (-19 / 2))
  let x11 ← Fp.pitchIncrementOfFloat (Fp.ofRat Fp.single (8 / 1))
  let x12 ← Fp.pitchIncrementOfFloat (Fp.ofRat Fp.single (-35 / 2))
  let x13 ← pitchIncAdd x11 x12
  let x14 ← Fp.pitchIncrementOfFloat (Fp.ofRat Fp.single (2 / 1))
  let x15 ← pitchIncAdd (33554432 : Word) x14
  let x16 ← pitchIncAdd (2147540131 : Word) (4294910797 : Word)
  return decide (0 = x1.toInt) && decide (33554432 = x2.toInt) && decide (25165824 = x4.toInt) && decide ((-25165824)
    = x5.toInt) && decide (x6.toInt = x9.toInt) && decide (x10.toInt = x13.toInt) && decide ((100663296 : Word).toInt
    = x15.toInt) && decide ((2147483648 : Word).toInt = x16.toInt)) = true := by decide +kernel

-- pitch_increment,operator_plus: line 991
example : holds (do
  let x1 ← pitchIncAdd (2147360191 : Word) (1234567 : Word)
  return decide ((2147483647 : Word).toInt = x1.toInt)) = true := by decide +kernel

-- pitch_increment,equality: lines 1006-1014
example : holds (do
  return decide ((0 : Word) = (0 : Word)) && decide ((1943301028 : Word) = (1943301028 : Word)) && decide ((206107980
    : Word) = (206107980 : Word)) && decide ((4294405062 : Word) = (4294405062 : Word)) && !decide ((1943301028 :
    Word) = (206107980 : Word)) && !decide ((206107980 : Word) = (4294405062 : Word)) && !decide ((0 : Word) =
    (536879104 : Word))) = true := by decide +kernel

-- pitch_increment,equality: line 1015
example : holds (do
  return !decide ((4294405062 : Word) = (562234 : Word))) = true := by decide +kernel

-- pitch_7_9,default_constructor: line 1023
example : holds (do
  return decide (0 = ((0 : U16).toNat : Int))) = true := by decide +kernel

-- pitch_7_9,construct_from_uint16: lines 1035-1065
example : holds (do
  return decide (0 = ((0 : U16).toNat : Int)) && decide (4660 = ((4660 : U16).toNat : Int)) && decide (22136 = ((22136
    : U16).toNat : Int)) && decide (32768 = ((32768 : U16).toNat : Int)) && decide (39612 = ((39612 : U16).toNat :
    Int)) && decide (65535 = ((65535 : U16).toNat : Int))) = true := by decide +kernel

-- pitch_7_9,construct_from_note_nr: lines 1078-1102
example : holds (do
  return decide (0 = ((pitch79OfNote 0).toNat : Int)) && decide (32768 = ((pitch79OfNote 64).toNat : Int)) && decide
    (8704 = ((pitch79OfNote 17).toNat : Int)) && decide (50688 = ((pitch79OfNote 99).toNat : Int)) && decide (65024 =
    ((pitch79OfNote 127).toNat : Int))) = true := by decide +kernel

-- pitch_7_9,construct_from_float: lines 1115-1157
example : holds (do
  let x1 ← Fp.pitch79Of Fp.single (Fp.ofRat Fp.single (0 / 1))
  let x2 ← Fp.pitch79Of Fp.single (Fp.ofRat Fp.single (129 / 2))
  let x3 ← Fp.pitch79Of Fp.single (Fp.ofRat Fp.single (69 / 4))
  let x4 ← Fp.pitch79Of Fp.single (Fp.ofRat Fp.single (399 / 4))
  let x5 ← Fp.pitch79Of Fp.single (Fp.ofRat Fp.single (1279999 / 10000))
  let x6 ← Fp.pitch79Of Fp.single (Fp.ofRat Fp.single (-1 / 2))
  let x7 ← Fp.pitch79Of Fp.single (Fp.ofRat Fp.single (-9923 / 100))
  let x8 ← Fp.pitch79Of Fp.single (Fp.ofRat Fp.single (128 / 1))
  return decide (0 = (x1.toNat : Int)) && decide (33024 = (x2.toNat : Int)) && decide (8832 = (x3.toNat : Int)) &&
    decide (51072 = (x4.toNat : Int)) && decide (65535 = (x5.toNat : Int)) && decide (0 = (x6.toNat : Int)) && decide
    (0 = (x7.toNat : Int)) && decide (65535 = (x8.toNat : Int))) = true := by decide +kernel

-- pitch_7_9,construct_from_float: line 1163
example : holds (do
  let x1 ← Fp.pitch79Of Fp.single (Fp.ofRat Fp.single (1000 / 1))
  return decide (65535 = (x1.toNat : Int))) = true := by decide +kernel

-- pitch_7_9,construct_from_double: lines 1176-1218
example : holds (do
  let x1 ← Fp.pitch79Of Fp.single (Fp.ofRat Fp.single (0 / 1))
  let x2 ← Fp.pitch79Of Fp.double (Fp.ofRat Fp.double (129 / 2))
  let x3 ← Fp.pitch79Of Fp.double (Fp.ofRat Fp.double (69 / 4))
  let x4 ← Fp.pitch79Of Fp.double (Fp.ofRat Fp.double (399 / 4))
  let x5 ← Fp.pitch79Of Fp.double (Fp.ofRat Fp.double (1279999 / 10000))
  let x6 ← Fp.pitch79Of Fp.double (Fp.ofRat Fp.double (-1 / 2))
  let x7 ← Fp.pitch79Of Fp.double (Fp.ofRat Fp.double (-9923 / 100))
  let x8 ← Fp.pitch79Of Fp.double (Fp.ofRat Fp.double (128 / 1))
  return decide (0 = (x1.toNat : Int)) && decide (33024 = (x2.toNat : Int)) && decide (8832 = (x3.toNat : Int)) &&
    decide (51072 = (x4.toNat : Int)) && decide (65535 = (x5.toNat : Int)) && decide (0 = (x6.toNat : Int)) && decide
    (0 = (x7.toNat : Int)) && decide (65535 = (x8.toNat : Int))) = true := by decide +kernel

-- pitch_7_9,construct_from_double: line 1224
example : holds (do
  let x1 ← Fp.pitch79Of Fp.double (Fp.ofRat Fp.double (1000 / 1))
  return decide (65535 = (x1.toNat : Int))) = true := by decide +kernel

-- pitch_7_9,equality: lines 1234-1241
example : holds (do
  let x1 ← Fp.pitch79Of Fp.single (Fp.ofRat Fp.single (24 / 1))
  return decide ((0 : U16) = (pitch79OfNote 0)) && decide ((32768 : U16) = (pitch79OfNote 64)) && decide ((12288 :
    U16) = x1) && decide ((65024 : U16) = (pitch79OfNote 127)) && !decide ((0 : U16) = (8192 : U16)) && !decide ((8192
    : U16) = (65535 : U16)) && !decide ((65535 : U16) = (32768 : U16))) = true := by decide +kernel

-- pitch_7_9,as_float: lines 1250-1254
example : holds (do
  return almost Fp.single (Fp.ofRat Fp.single (0 / 1)) (Fp.pitch79As Fp.single (0 : U16)) && almost Fp.single
    (Fp.ofRat Fp.single (32 / 1)) (Fp.pitch79As Fp.single (16384 : U16)) && almost Fp.single (Fp.ofRat Fp.single (257
    / 4)) (Fp.pitch79As Fp.single (32896 : U16)) && almost Fp.single (Fp.ofRat Fp.single (769 / 8)) (Fp.pitch79As
    Fp.single (49216 : U16)) && almost Fp.single (Fp.ofRat Fp.single (255 / 2)) (Fp.pitch79As Fp.single (65280 : U16))) = true := by decide +kernel

-- pitch_7_9,as_double: lines 1263-1267
example : holds (do
  return almost Fp.double (Fp.ofRat Fp.double (0 / 1)) (Fp.pitch79As Fp.double (0 : U16)) && almost Fp.double
    (Fp.ofRat Fp.double (32 / 1)) (Fp.pitch79As Fp.double (16384 : U16)) && almost Fp.double (Fp.ofRat Fp.double (257
    / 4)) (Fp.pitch79As Fp.double (32896 : U16)) && almost Fp.double (Fp.ofRat Fp.double (769 / 8)) (Fp.pitch79As
    Fp.double (49216 : U16)) && almost Fp.double (Fp.ofRat Fp.double (255 / 2)) (Fp.pitch79As Fp.double (65280 : U16))) = true := by decide +kernel

-- pitch_7_9,note_nr: lines 1276-1281
example : holds (do
  let x1 ← Fp.pitch79Of Fp.single (Fp.ofRat Fp.single (2939 / 25))
  return decide (0 = ((pitch79Note (0 : U16)).toNat : Int)) && decide (9 = ((pitch79Note (4660 : U16)).toNat : Int))
    && decide (64 = ((pitch79Note (32768 : U16)).toNat : Int)) && decide (99 = ((pitch79Note (pitch79OfNote 99)).toNat
    : Int)) && decide (117 = ((pitch79Note x1).toNat : Int)) && decide (127 = ((pitch79Note (65535 : U16)).toNat :
    Int))) = true := by decide +kernel

-- pitch_7_9,symmetric_float_conversions: lines 1295-1296
example : holds (do
  let x1 ← Fp.pitch79Of Fp.single (Fp.pitch79As Fp.single (pitch79OfNote 0))
  let x2 ← Fp.pitch79Of Fp.double (Fp.pitch79As Fp.double (pitch79OfNote 0))
  let x3 ← Fp.pitch79Of Fp.single (Fp.pitch79As Fp.single (pitch79OfNote 11))
  let x4 ← Fp.pitch79Of Fp.double (Fp.pitch79As Fp.double (pitch79OfNote 11))
  let x5 ← Fp.pitch79Of Fp.single (Fp.pitch79As Fp.single (pitch79OfNote 23))
  let x6 ← Fp.pitch79Of Fp.double (Fp.pitch79As Fp.double (pitch79OfNote 23))
  let x7 ← Fp.pitch79Of Fp.single (Fp.pitch79As Fp.single (pitch79OfNote 34))
  let x8 ← Fp.pitch79Of Fp.double (Fp.pitch79As Fp.double (pitch79OfNote 34))
  return decide ((pitch79OfNote 0) = x1) && decide ((pitch79OfNote 0) = x2) && decide ((pitch79OfNote 11) = x3) &&
    decide ((pitch79OfNote 11) = x4) && decide ((pitch79OfNote 23) = x5) && decide ((pitch79OfNote 23) = x6) && decide
    ((pitch79OfNote 34) = x7) && decide ((pitch79OfNote 34) = x8)) = true := by decide +kernel

-- pitch_7_9,symmetric_float_conversions: lines 1295-1306
example : holds (do
  let x1 ← Fp.pitch79Of Fp.single (Fp.pitch79As Fp.single (pitch79OfNote 46))
  let x2 ← Fp.pitch79Of Fp.double (Fp.pitch79As Fp.double (pitch79OfNote 46))
  let x3 ← Fp.pitch79Of Fp.single (Fp.pitch79As Fp.single (pitch79OfNote 57))
  let x4 ← Fp.pitch79Of Fp.double (Fp.pitch79As Fp.double (pitch79OfNote 57))
  let x5 ← Fp.pitch79Of Fp.single (Fp.pitch79As Fp.single (0 : U16))
  let x6 ← Fp.pitch79Of Fp.double (Fp.pitch79As Fp.double (0 : U16))
  let x7 ← Fp.pitch79Of Fp.single (Fp.pitch79As Fp.single (5957 : U16))
  let x8 ← Fp.pitch79Of Fp.double (Fp.pitch79As Fp.double (5957 : U16))
  return decide ((pitch79OfNote 46) = x1) && decide ((pitch79OfNote 46) = x2) && decide ((pitch79OfNote 57) = x3) &&
    decide ((pitch79OfNote 57) = x4) && decide (((0 : U16).toNat : Int) = (x5.toNat : Int)) && decide (((0 :
    U16).toNat : Int) = (x6.toNat : Int)) && decide (((5957 : U16).toNat : Int) = (x7.toNat : Int)) && decide (((5957
    : U16).toNat : Int) = (x8.toNat : Int))) = true := by decide +kernel

-- pitch_7_9,symmetric_float_conversions: lines 1305-1306
example : holds (do
  let x1 ← Fp.pitch79Of Fp.single (Fp.pitch79As Fp.single (11915 : U16))
  let x2 ← Fp.pitch79Of Fp.double (Fp.pitch79As Fp.double (11915 : U16))
  let x3 ← Fp.pitch79Of Fp.single (Fp.pitch79As Fp.single (17872 : U16))
  let x4 ← Fp.pitch79Of Fp.double (Fp.pitch79As Fp.double (17872 : U16))
  let x5 ← Fp.pitch79Of Fp.single (Fp.pitch79As Fp.single (23830 : U16))
  let x6 ← Fp.pitch79Of Fp.double (Fp.pitch79As Fp.double (23830 : U16))
  let x7 ← Fp.pitch79Of Fp.single (Fp.pitch79As Fp.single (29788 : U16))
  let x8 ← Fp.pitch79Of Fp.double (Fp.pitch79As Fp.double (29788 : U16))
  return decide (((11915 : U16).toNat : Int) = (x1.toNat : Int)) && decide (((11915 : U16).toNat : Int) = (x2.toNat :
    Int)) && decide (((17872 : U16).toNat : Int) = (x3.toNat : Int)) && decide (((17872 : U16).toNat : Int) =
    (x4.toNat : Int)) && decide (((23830 : U16).toNat : Int) = (x5.toNat : Int)) && decide (((23830 : U16).toNat :
    Int) = (x6.toNat : Int)) && decide (((29788 : U16).toNat : Int) = (x7.toNat : Int)) && decide (((29788 :
    U16).toNat : Int) = (x8.toNat : Int))) = true := by decide +kernel

-- pitch_7_25,default_constructor: line 1315
example : holds (do
  return decide (0 = ((0 : Word).toNat : Int))) = true := by decide +kernel

-- pitch_7_25,construct_from_uint32: lines 1327-1351
example : holds (do
  return decide (0 = ((0 : Word).toNat : Int)) && decide (305419896 = ((305419896 : Word).toNat : Int)) && decide
    (2147483648 = ((2147483648 : Word).toNat : Int)) && decide (3452816845 = ((3452816845 : Word).toNat : Int)) &&
    decide (4294967295 = ((4294967295 : Word).toNat : Int))) = true := by decide +kernel

-- pitch_7_25,construct_from_note_nr: lines 1364-1388
example : holds (do
  let x1 ← pitch725OfNote 0
  let x2 ← pitch725OfNote 64
  let x3 ← pitch725OfNote 17
  let x4 ← pitch725OfNote 99
  let x5 ← pitch725OfNote 127
  return decide (0 = (x1.toNat : Int)) && decide (2147483648 = (x2.toNat : Int)) && decide (570425344 = (x3.toNat :
    Int)) && decide (3321888768 = (x4.toNat : Int)) && decide (4261412864 = (x5.toNat : Int))) = true := by decide +kernel

-- pitch_7_25,construct_from_pitch7_9: lines 1401-1419
example : holds (do
  let x1 ← Fp.pitch79Of Fp.single (Fp.ofRat Fp.single (279 / 4))
  return decide (305397760 = ((pitch725Of79 (4660 : U16)).toNat : Int)) && decide (2147483648 = ((pitch725Of79
    (pitch79OfNote 64)).toNat : Int)) && decide (2882338816 = ((pitch725Of79 (43981 : U16)).toNat : Int)) && almost
    Fp.single (Fp.ofRat Fp.single (279 / 4)) (Fp.pitch725AsFloat (pitch725Of79 x1))) = true := by decide +kernel

-- pitch_7_25,construct_from_controller_value: line 1432
example : holds (do
  return decide (305419896 = ((pitchOfController (305419896 : Word)).toNat : Int))) = true := by decide +kernel

-- pitch_7_25,construct_from_float: lines 1445-1487
example : holds (do
  let x1 ← Fp.pitch725Of Fp.single (Fp.ofRat Fp.single (0 / 1))
  let x2 ← Fp.pitch725Of Fp.single (Fp.ofRat Fp.single (129 / 2))
  let x3 ← Fp.pitch725Of Fp.single (Fp.ofRat Fp.single (69 / 4))
  let x4 ← Fp.pitch725Of Fp.single (Fp.ofRat Fp.single (399 / 4))
  let x5 ← Fp.pitch725Of Fp.single (Fp.ofRat Fp.single (1279999 / 10000))
  let x6 ← Fp.pitch725Of Fp.single (Fp.ofRat Fp.single (-1 / 2))
  let x7 ← Fp.pitch725Of Fp.single (Fp.ofRat Fp.single (-9923 / 100))
  let x8 ← Fp.pitch725Of Fp.single (Fp.ofRat Fp.single (128 / 1))
  return decide (0 = (x1.toNat : Int)) && decide (2164260864 = (x2.toNat : Int)) && decide (578813952 = (x3.toNat :
    Int)) && decide (3347054592 = (x4.toNat : Int)) && decide (4294967295 = ((x5 ||| 4095).toNat : Int)) && decide (0
    = (x6.toNat : Int)) && decide (0 = (x7.toNat : Int)) && decide (4294967295 = (x8.toNat : Int))) = true := by decide +kernel

-- pitch_7_25,construct_from_float: line 1493
example : holds (do
  let x1 ← Fp.pitch725Of Fp.single (Fp.ofRat Fp.single (1000 / 1))
  return decide (4294967295 = (x1.toNat : Int))) = true := by decide +kernel

-- pitch_7_25,construct_from_double: lines 1506-1548
example : holds (do
  let x1 ← Fp.pitch725Of Fp.double (Fp.ofRat Fp.double (0 / 1))
  let x2 ← Fp.pitch725Of Fp.double (Fp.ofRat Fp.double (129 / 2))
  let x3 ← Fp.pitch725Of Fp.double (Fp.ofRat Fp.double (69 / 4))
  let x4 ← Fp.pitch725Of Fp.double (Fp.ofRat Fp.double (399 / 4))
  let x5 ← Fp.pitch725Of Fp.double (Fp.ofRat Fp.double (12799999999 / 100000000))
  let x6 ← Fp.pitch725Of Fp.double (Fp.ofRat Fp.double (-1 / 2))
  let x7 ← Fp.pitch725Of Fp.double (Fp.ofRat Fp.double (-9923 / 100))
  let x8 ← Fp.pitch725Of Fp.double (Fp.ofRat Fp.double (128 / 1))
  return decide (0 = (x1.toNat : Int)) && decide (2164260864 = (x2.toNat : Int)) && decide (578813952 = (x3.toNat :
    Int)) && decide (3347054592 = (x4.toNat : Int)) && decide (4294967295 = (x5.toNat : Int)) && decide (0 = (x6.toNat
    : Int)) && decide (0 = (x7.toNat : Int)) && decide (4294967295 = (x8.toNat : Int))) = true := by decide +kernel

-- pitch_7_25,construct_from_double: line 1554
example : holds (do
  let x1 ← Fp.pitch725Of Fp.double (Fp.ofRat Fp.double (1000 / 1))
  return decide (4294967295 = (x1.toNat : Int))) = true := by decide +kernel

-- pitch_7_25,equality: lines 1564-1571
example : holds (do
  let x1 ← pitch725OfNote 0
  let x2 ← pitch725OfNote 64
  let x3 ← Fp.pitch725Of Fp.single (Fp.ofRat Fp.single (24 / 1))
  let x4 ← pitch725OfNote 127
  return decide ((0 : Word) = x1) && decide ((2147483648 : Word) = x2) && decide ((805306368 : Word) = x3) && decide
    ((4261412864 : Word) = x4) && !decide ((0 : Word) = (8192 : Word)) && !decide ((8192 : Word) = (65535 : Word)) &&
    !decide ((65535 : Word) = (32768 : Word))) = true := by decide +kernel

-- pitch_7_25,as_float: lines 1580-1584
example : holds (do
  return decide ((Fp.pitch725AsFloat (0 : Word)) = (Fp.ofRat Fp.single (0 / 1))) && decide ((Fp.pitch725AsFloat
    (1073741824 : Word)) = (Fp.ofRat Fp.single (32 / 1))) && decide ((Fp.pitch725AsFloat (2155872256 : Word)) =
    (Fp.ofRat Fp.single (257 / 4))) && decide ((Fp.pitch725AsFloat (3225419776 : Word)) = (Fp.ofRat Fp.single (769 /
    8))) && decide ((Fp.pitch725AsFloat (4278190080 : Word)) = (Fp.ofRat Fp.single (255 / 2)))) = true := by decide +kernel

-- pitch_7_25,as_double: lines 1593-1597
example : holds (do
  return decide ((Fp.pitch725AsDouble (0 : Word)) = (Fp.ofRat Fp.double (0 / 1))) && decide ((Fp.pitch725AsDouble
    (1073741824 : Word)) = (Fp.ofRat Fp.double (32 / 1))) && decide ((Fp.pitch725AsDouble (2155872256 : Word)) =
    (Fp.ofRat Fp.double (257 / 4))) && decide ((Fp.pitch725AsDouble (3225419776 : Word)) = (Fp.ofRat Fp.double (769 /
    8))) && decide ((Fp.pitch725AsDouble (4278190080 : Word)) = (Fp.ofRat Fp.double (255 / 2)))) = true := by decide +kernel

-- pitch_7_25,note_nr: lines 1606-1611
example : holds (do
  let x1 ← pitch725OfNote 99
  let x2 ← Fp.pitch725Of Fp.single (Fp.ofRat Fp.single (2939 / 25))
  return decide (0 = ((pitch725Note (0 : Word)).toNat : Int)) && decide (9 = ((pitch725Note (305419896 : Word)).toNat
    : Int)) && decide (64 = ((pitch725Note (2147483648 : Word)).toNat : Int)) && decide (99 = ((pitch725Note x1).toNat
    : Int)) && decide (117 = ((pitch725Note x2).toNat : Int)) && decide (127 = ((pitch725Note (4294967295 :
    Word)).toNat : Int))) = true := by decide +kernel

-- pitch_7_25,symmetric_double_conversions: line 1624
example : holds (do
  let x1 ← pitch725OfNote 0
  let x2 ← Fp.pitch725Of Fp.double (Fp.pitch725AsDouble x1)
  let x3 ← pitch725OfNote 11
  let x4 ← Fp.pitch725Of Fp.double (Fp.pitch725AsDouble x3)
  let x5 ← pitch725OfNote 23
  let x6 ← Fp.pitch725Of Fp.double (Fp.pitch725AsDouble x5)
  let x7 ← pitch725OfNote 34
  let x8 ← Fp.pitch725Of Fp.double (Fp.pitch725AsDouble x7)
  let x9 ← pitch725OfNote 46
  let x10 ← Fp.pitch725Of Fp.double (Fp.pitch725AsDouble x9)
  let x11 ← pitch725OfNote 57
  let x12 ← Fp.pitch725Of Fp.double (Fp.pitch725AsDouble x11)
  return decide (x1 = x2) && decide (x3 = x4) && decide (x5 = x6) && decide (x7 = x8) && decide (x9 = x10) && decide
    (x11 = x12)) = true := by decide +kernel

-- pitch_7_25,assign_pitch_7_9: lines 1647-1671
example : holds (do
  let x1 ← Fp.pitch79Of Fp.single (Fp.ofRat Fp.single (199 / 2))
  return decide (0 = ((pitch725Of79 (0 : U16)).toNat : Int)) && decide (2697789440 = ((pitch725Of79 (41165 :
    U16)).toNat : Int)) && decide (3338665984 = ((pitch725Of79 x1).toNat : Int)) && decide (828964864 = ((pitch725Of79
    (12649 : U16)).toNat : Int)) && decide (4294901760 = ((pitch725Of79 (65535 : U16)).toNat : Int))) = true := by decide +kernel

-- pitch_7_25,operator_plus_pitch_increment: lines 1688-1698
example : holds (do
  let x1 ← Fp.pitchIncrementOfFloat (Fp.ofRat Fp.single (-1 / 1))
  let x2 ← Fp.pitchIncrementOfFloat (Fp.ofRat Fp.single (-1 / 2))
  let x3 ← Fp.pitchIncrementOfFloat (Fp.ofRat Fp.single (-3 / 4))
  let x4 ← Fp.pitch725Of Fp.single (Fp.ofRat Fp.single (19 / 1))
  let x5 ← pitch725Add x4 (16777216 : Word)
  let x6 ← pitch725OfNote 64
  let x7 ← pitch725Add x6 (25165824 : Word)
  let x8 ← pitch725OfNote 99
  let x9 ← pitch725Add x8 x1
  let x10 ← Fp.pitch725Of Fp.single (Fp.ofRat Fp.single (469 / 4))
  let x11 ← pitch725Add x10 (25165824 : Word)
  let x12 ← pitch725Add x4 x2
  let x13 ← pitch725Add x6 x3
  let x14 ← Fp.pitchIncrementOfFloat (Fp.ofRat Fp.single (-1 / 10))
  let x15 ← pitch725Add x8 x14
  let x16 ← Fp.pitch725Of Fp.single (Fp.ofRat Fp.single (2939 / 25))
  let x17 ← Fp.pitchIncrementOfFloat (Fp.ofRat Fp.single (-11 / 25))
  let x18 ← pitch725Add x16 x17
  return almost Fp.single (Fp.ofRat Fp.single (39 / 2)) (Fp.pitch725AsFloat x5) && almost Fp.single (Fp.ofRat
    Fp.single (259 / 4)) (Fp.pitch725AsFloat x7) && almost Fp.single (Fp.ofRat Fp.single (98 / 1)) (Fp.pitch725AsFloat
    x9) && almost Fp.single (Fp.ofRat Fp.single (118 / 1)) (Fp.pitch725AsFloat x11) && almost Fp.single (Fp.ofRat
    Fp.single (37 / 2)) (Fp.pitch725AsFloat x12) && almost Fp.single (Fp.ofRat Fp.single (253 / 4))
    (Fp.pitch725AsFloat x13) && almost Fp.single (Fp.ofRat Fp.single (989 / 10)) (Fp.pitch725AsFloat x15) && almost
    Fp.single (Fp.ofRat Fp.single (2928 / 25)) (Fp.pitch725AsFloat x18)) = true := by decide +kernel

-- pitch_7_25,operator_plus_pitch_increment: lines 1701-1703
example : holds (do
  let x1 ← Fp.pitch725Of Fp.single (Fp.ofRat Fp.single (1 / 10))
  let x2 ← Fp.pitchIncrementOfFloat (Fp.ofRat Fp.single (-3 / 2))
  let x3 ← pitch725Add x1 x2
  let x4 ← Fp.pitch725Of Fp.double (Fp.ofRat Fp.double (1279 / 10))
  let x5 ← Fp.pitchIncrementOfDouble (Fp.ofRat Fp.double (1 / 5))
  let x6 ← pitch725Add x4 x5
  return decide ((Fp.pitch725AsFloat x3) = (Fp.ofRat Fp.single (0 / 1))) && almost Fp.single (Fp.ofRat Fp.single (128
    / 1)) (Fp.pitch725AsFloat x6)) = true := by decide +kernel

-- pitch_7_25,operator_plus_float: lines 1712-1723
example : holds (do
  let x1 ← Fp.pitch725Of Fp.single (Fp.ofRat Fp.single (19 / 1))
  let x2 ← Fp.pitch725DetuneFloat x1 (Fp.ofRat Fp.single (1 / 2))
  let x3 ← pitch725OfNote 64
  let x4 ← Fp.pitch725DetuneFloat x3 (Fp.ofRat Fp.single (3 / 4))
  let x5 ← pitch725OfNote 99
  let x6 ← Fp.pitch725DetuneFloat x5 (Fp.ofRat Fp.single (1 / 10))
  let x7 ← Fp.pitch725Of Fp.single (Fp.ofRat Fp.single (2939 / 25))
  let x8 ← Fp.pitch725DetuneFloat x7 (Fp.ofRat Fp.single (11 / 25))
  let x9 ← Fp.pitch725Of Fp.single (Fp.ofRat Fp.single (12777 / 100))
  let x10 ← Fp.pitch725DetuneFloat x9 (Fp.ofRat Fp.single (123 / 100))
  let x11 ← Fp.pitch725DetuneFloat x1 (Fp.ofRat Fp.single (-1 / 2))
  let x12 ← Fp.pitch725DetuneFloat x3 (Fp.ofRat Fp.single (-3 / 4))
  let x13 ← Fp.pitch725DetuneFloat x5 (Fp.ofRat Fp.single (-1 / 10))
  return almost Fp.single (Fp.ofRat Fp.single (39 / 2)) (Fp.pitch725AsFloat x2) && almost Fp.single (Fp.ofRat
    Fp.single (259 / 4)) (Fp.pitch725AsFloat x4) && almost Fp.single (Fp.ofRat Fp.single (991 / 10))
    (Fp.pitch725AsFloat x6) && almost Fp.single (Fp.ofRat Fp.single (118 / 1)) (Fp.pitch725AsFloat x8) && decide
    (4294967295 = (x10.toNat : Int)) && almost Fp.single (Fp.ofRat Fp.single (37 / 2)) (Fp.pitch725AsFloat x11) &&
    almost Fp.single (Fp.ofRat Fp.single (253 / 4)) (Fp.pitch725AsFloat x12) && almost Fp.single (Fp.ofRat Fp.single
    (989 / 10)) (Fp.pitch725AsFloat x13)) = true := by decide +kernel

-- pitch_7_25,operator_plus_float: lines 1724-1729
example : holds (do
  let x1 ← Fp.pitch725Of Fp.single (Fp.ofRat Fp.single (2939 / 25))
  let x2 ← Fp.pitch725DetuneFloat x1 (Fp.ofRat Fp.single (-11 / 25))
  let x3 ← Fp.pitch725Of Fp.single (Fp.ofRat Fp.single (1 / 1))
  let x4 ← Fp.pitch725DetuneFloat x3 (Fp.ofRat Fp.single (-123 / 100))
  let x5 ← Fp.pitch725Of Fp.single (Fp.ofRat Fp.single (255 / 2))
  let x6 ← Fp.pitch725DetuneFloat x5 (Fp.ofRat Fp.single (3 / 5))
  return almost Fp.single (Fp.ofRat Fp.single (2928 / 25)) (Fp.pitch725AsFloat x2) && decide (0 = (x4.toNat : Int)) &&
    decide (4294967295 = (x6.toNat : Int))) = true := by decide +kernel

-- pitch_7_25,operator_plus_double: lines 1740-1751
example : holds (do
  let x1 ← Fp.pitch725Of Fp.double (Fp.ofRat Fp.double (19 / 1))
  let x2 ← Fp.pitch725Detune x1 (Fp.ofRat Fp.double (1 / 2))
  let x3 ← pitch725OfNote 64
  let x4 ← Fp.pitch725Detune x3 (Fp.ofRat Fp.double (3 / 4))
  let x5 ← pitch725OfNote 99
  let x6 ← Fp.pitch725Detune x5 (Fp.ofRat Fp.double (1 / 10))
  let x7 ← Fp.pitch725Of Fp.double (Fp.ofRat Fp.double (2939 / 25))
  let x8 ← Fp.pitch725Detune x7 (Fp.ofRat Fp.double (11 / 25))
  let x9 ← Fp.pitch725Of Fp.double (Fp.ofRat Fp.double (12777 / 100))
  let x10 ← Fp.pitch725Detune x9 (Fp.ofRat Fp.double (123 / 100))
  let x11 ← Fp.pitch725Detune x1 (Fp.ofRat Fp.double (-1 / 2))
  let x12 ← Fp.pitch725Detune x3 (Fp.ofRat Fp.double (-3 / 4))
  let x13 ← Fp.pitch725Detune x5 (Fp.ofRat Fp.double (-1 / 10))
  return near (1 / 100000000) (Fp.ofRat Fp.double (39 / 2)) (Fp.pitch725AsDouble x2) && near (1 / 100000000) (Fp.ofRat
    Fp.double (259 / 4)) (Fp.pitch725AsDouble x4) && near (1 / 100000000) (Fp.ofRat Fp.double (991 / 10))
    (Fp.pitch725AsDouble x6) && near (1 / 100000000) (Fp.ofRat Fp.double (118 / 1)) (Fp.pitch725AsDouble x8) && decide
    (4294967295 = (x10.toNat : Int)) && near (1 / 100000000) (Fp.ofRat Fp.double (37 / 2)) (Fp.pitch725AsDouble x11)
    && near (1 / 100000000) (Fp.ofRat Fp.double (253 / 4)) (Fp.pitch725AsDouble x12) && near (1 / 100000000) (Fp.ofRat
    Fp.double (989 / 10)) (Fp.pitch725AsDouble x13)) = true := by decide +kernel

-- pitch_7_25,operator_plus_double: lines 1752-1757
example : holds (do
  let x1 ← Fp.pitch725Of Fp.double (Fp.ofRat Fp.double (2939 / 25))
  let x2 ← Fp.pitch725Detune x1 (Fp.ofRat Fp.double (-11 / 25))
  let x3 ← Fp.pitch725Of Fp.double (Fp.ofRat Fp.double (1 / 1))
  let x4 ← Fp.pitch725Detune x3 (Fp.ofRat Fp.double (-123 / 100))
  let x5 ← Fp.pitch725Of Fp.double (Fp.ofRat Fp.double (120 / 1))
  let x6 ← Fp.pitch725Detune x5 (Fp.ofRat Fp.double (21 / 2))
  return near (1 / 100000000) (Fp.ofRat Fp.double (2928 / 25)) (Fp.pitch725AsDouble x2) && decide (0 = (x4.toNat :
    Int)) && decide (4294967295 = (x6.toNat : Int))) = true := by decide +kernel

-- pitch_7_25,operator_plus_assign_pitch_increment: lines 1777-1815
example : holds (do
  let x1 ← Fp.pitchIncrementOfFloat (Fp.ofRat Fp.single (-1 / 1))
  let x2 ← Fp.pitchIncrementOfFloat (Fp.ofRat Fp.single (-1 / 2))
  let x3 ← pitch725OfNote 60
  let x4 ← pitch725AddAssign x3 (16777216 : Word)
  let x5 ← Fp.pitch725Of Fp.single (Fp.ofRat Fp.single (121 / 2))
  let x6 ← Fp.pitch725Of Fp.single (Fp.ofRat Fp.single (309 / 4))
  let x7 ← pitch725AddAssign x6 (25165824 : Word)
  let x8 ← pitch725OfNote 78
  let x9 ← pitch725OfNote 50
  let x10 ← pitch725AddAssign x9 x1
  let x11 ← pitch725OfNote 49
  let x12 ← pitch725AddAssign x10 x2
  let x13 ← Fp.pitch725Of Fp.single (Fp.ofRat Fp.single (97 / 2))
  let x14 ← pitch725OfNote 4
  let x15 ← Fp.pitchIncrementOfFloat (Fp.ofRat Fp.single (-41 / 10))
  let x16 ← pitch725AddAssign x14 x15
  let x17 ← Fp.pitch725Of Fp.double (Fp.ofRat Fp.double (120 / 1))
  let x18 ← Fp.pitch725Detune x17 (Fp.ofRat Fp.double (21 / 2))
  let x19 ← pitch725OfNote 68
  let x20 ← Fp.pitchIncrementOfDouble (Fp.ofRat Fp.double (601 / 10))
  let x21 ← pitch725AddAssign x19 x20
  return decide (x5 = x4) && decide (x8 = x7) && decide (x11 = x10) && decide (x13 = x12) && decide (0 = (x16.toNat :
    Int)) && decide (4294967295 = (x18.toNat : Int)) && decide (4294967295 = (x21.toNat : Int))) = true := by decide +kernel

-- pitch_bend_sensitivity,default_constructor: line 1824
example : holds (do
  let x1 ← defaultSensitivity
  return decide (67108864 = (x1.toNat : Int))) = true := by decide +kernel

-- pitch_bend_sensitivity,operator_times: lines 1838-1868
example : holds (do
  let x1 ← pitch725OfNote 10
  let x2 ← pitch725OfNote 1
  let x3 ← bendTimesSensitivity (defaultPitchBend) x2
  let x4 ← Fp.pitchBendOf Fp.single (Fp.ofRat Fp.single (1 / 2))
  let x5 ← bendTimesSensitivity x4 x2
  let x6 ← sensitivityTimesBend x2 x4
  let x7 ← pitch725Add x1 x5
  let x8 ← Fp.pitchBendOf Fp.single (Fp.ofRat Fp.single (-1 / 2))
  let x9 ← pitch725OfNote 2
  let x10 ← bendTimesSensitivity x8 x9
  let x11 ← sensitivityTimesBend x9 x8
  let x12 ← pitch725Add x1 x10
  let x13 ← Fp.pitchBendOf Fp.single (Fp.ofRat Fp.single (1 / 1))
  let x14 ← Fp.pitch725Of Fp.single (Fp.ofRat Fp.single (5 / 2))
  let x15 ← bendTimesSensitivity x13 x14
  let x16 ← sensitivityTimesBend x14 x13
  let x17 ← pitch725Add x1 x15
  let x18 ← Fp.pitchBendOf Fp.single (Fp.ofRat Fp.single (-1 / 1))
  let x19 ← Fp.pitch725Of Fp.single (Fp.ofRat Fp.single (4 / 1))
  let x20 ← bendTimesSensitivity x18 x19
  let x21 ← sensitivityTimesBend x19 x18
  return decide (x3 = (0 : Word)) && decide (x5 = x6) && almost Fp.single (Fp.Flt.add Fp.single (Fp.pitch725AsFloat
    x1) (Fp.ofRat Fp.single (1 / 2))) (Fp.pitch725AsFloat x7) && decide (x10 = x11) && almost Fp.single (Fp.Flt.sub
    Fp.single (Fp.pitch725AsFloat x1) (Fp.ofRat Fp.single (1 / 1))) (Fp.pitch725AsFloat x12) && decide (x15 = x16) &&
    almost Fp.single (Fp.Flt.add Fp.single (Fp.pitch725AsFloat x1) (Fp.ofRat Fp.single (5 / 2))) (Fp.pitch725AsFloat
    x17) && decide (x20 = x21)) = true := by decide +kernel

-- pitch_bend_sensitivity,operator_times: lines 1870-1884
example : holds (do
  let x1 ← pitch725OfNote 10
  let x2 ← Fp.pitchBendOf Fp.single (Fp.ofRat Fp.single (1 / 1))
  let x3 ← Fp.pitchBendOf Fp.single (Fp.ofRat Fp.single (-1 / 1))
  let x4 ← Fp.pitch725Of Fp.single (Fp.ofRat Fp.single (4 / 1))
  let x5 ← bendTimesSensitivity x3 x4
  let x6 ← pitch725Add x1 x5
  let x7 ← Fp.pitch725Of Fp.single (Fp.ofRat Fp.single (96 / 1))
  let x8 ← bendTimesSensitivity x3 x7
  let x9 ← bendTimesSensitivity x2 x7
  return almost Fp.single (Fp.Flt.sub Fp.single (Fp.pitch725AsFloat x1) (Fp.ofRat Fp.single (4 / 1)))
    (Fp.pitch725AsFloat x6) && decide ((-2147483648) = x8.toInt) && decide (2147483647 = x9.toInt)) = true := by decide +kernel

-- controller_increment,default_constructor: line 1893
example : holds (do
  return decide (0 = (0 : Word).toInt)) = true := by decide +kernel

-- controller_increment,construct_from_int32: lines 1905-1929
example : holds (do
  return decide (99 = (99 : Word).toInt) && decide (305419896 = (305419896 : Word).toInt) && decide (1216907400 =
    (1216907400 : Word).toInt) && decide (2147483647 = (2147483647 : Word).toInt) && decide ((-778899) = (4294188397 :
    Word).toInt)) = true := by decide +kernel

-- controller_increment,equality: lines 1943-1951
example : holds (do
  return decide ((0 : Word) = (0 : Word)) && decide ((1943301028 : Word) = (1943301028 : Word)) && decide ((206107980
    : Word) = (206107980 : Word)) && decide ((4294405062 : Word) = (4294405062 : Word)) && !decide ((1943301028 :
    Word) = (206107980 : Word)) && !decide ((206107980 : Word) = (4294405062 : Word)) && !decide ((0 : Word) =
    (536879104 : Word))) = true := by decide +kernel

-- controller_increment,equality: line 1952
example : holds (do
  return !decide ((4294405062 : Word) = (562234 : Word))) = true := by decide +kernel

-- controller_value,default_constructor: line 1960
example : holds (do
  return decide (0 = ((0 : Word).toNat : Int))) = true := by decide +kernel

-- controller_value,construct_from_uint32: lines 1972-1996
example : holds (do
  return decide (0 = ((0 : Word).toNat : Int)) && decide (305419896 = ((305419896 : Word).toNat : Int)) && decide
    (2147483648 = ((2147483648 : Word).toNat : Int)) && decide (3452816845 = ((3452816845 : Word).toNat : Int)) &&
    decide (4294967295 = ((4294967295 : Word).toNat : Int))) = true := by decide +kernel

-- controller_value,construct_from_uint14: lines 2009-2033
example : holds (do
  let x1 ← controllerOf14 0
  let x2 ← controllerOf14 7316
  let x3 ← controllerOf14 8192
  let x4 ← controllerOf14 11413
  let x5 ← controllerOf14 16383
  return decide (0 = (x1.toNat : Int)) && decide (1917845504 = (x2.toNat : Int)) && decide (2147483648 = (x3.toNat :
    Int)) && decide (2991952556 = (x4.toNat : Int)) && decide (4294967295 = (x5.toNat : Int))) = true := by decide +kernel

-- controller_value,construct_from_uint7: lines 2046-2070
example : holds (do
  return decide (0 = ((controllerOf7 0).toNat : Int)) && decide (2013265920 = ((controllerOf7 60).toNat : Int)) &&
    decide (2147483648 = ((controllerOf7 64).toNat : Int)) && decide (2999659698 = ((controllerOf7 89).toNat : Int))
    && decide (4294967295 = ((controllerOf7 127).toNat : Int))) = true := by decide +kernel

-- controller_value,construct_from_pitch_7_25: line 2084
example : holds (do
  let x1 ← Fp.pitch725Of Fp.double (Fp.ofRat Fp.double (7463 / 100))
  return decide ((x1.toNat : Int) = ((controllerOfPitch x1).toNat : Int))) = true := by decide +kernel

-- controller_value,construct_from_float: lines 2097-2139
example : holds (do
  let x1 ← Fp.controllerOf (Fp.ofRat Fp.single (0 / 1))
  let x2 ← Fp.controllerOf (Fp.ofRat Fp.single (1 / 4))
  let x3 ← Fp.controllerOf (Fp.ofRat Fp.single (1 / 2))
  let x4 ← Fp.controllerOf (Fp.ofRat Fp.single (3 / 4))
  let x5 ← Fp.controllerOf (Fp.ofRat Fp.single (1 / 1))
  let x6 ← Fp.controllerOf (Fp.ofRat Fp.single (-1 / 100))
  let x7 ← Fp.controllerOf (Fp.ofRat Fp.single (-1 / 2))
  let x8 ← Fp.controllerOf (Fp.ofRat Fp.single (-108 / 1))
  return decide (0 = (x1.toNat : Int)) && decide (1073741824 = (x2.toNat : Int)) && decide (2147483648 = (x3.toNat :
    Int)) && decide (3221225471 = (x4.toNat : Int)) && decide (4294967295 = (x5.toNat : Int)) && decide (0 = (x6.toNat
    : Int)) && decide (0 = (x7.toNat : Int)) && decide (0 = (x8.toNat : Int))) = true := by decide +kernel

-- controller_value,construct_from_float: lines 2145-2151
example : holds (do
  let x1 ← Fp.controllerOf (Fp.ofRat Fp.single (7 / 5))
  let x2 ← Fp.controllerOf (Fp.ofRat Fp.single (99 / 1))
  return decide (4294967295 = (x1.toNat : Int)) && decide (4294967295 = (x2.toNat : Int))) = true := by decide +kernel

-- controller_value,construct_from_double: lines 2164-2206
example : holds (do
  let x1 ← Fp.controllerOf (Fp.ofRat Fp.double (0 / 1))
  let x2 ← Fp.controllerOf (Fp.ofRat Fp.double (1 / 4))
  let x3 ← Fp.controllerOf (Fp.ofRat Fp.double (1 / 2))
  let x4 ← Fp.controllerOf (Fp.ofRat Fp.double (3 / 4))
  let x5 ← Fp.controllerOf (Fp.ofRat Fp.double (1 / 1))
  let x6 ← Fp.controllerOf (Fp.ofRat Fp.double (-1 / 100))
  let x7 ← Fp.controllerOf (Fp.ofRat Fp.double (-1 / 2))
  let x8 ← Fp.controllerOf (Fp.ofRat Fp.double (-108 / 1))
  return decide (0 = (x1.toNat : Int)) && decide (1073741824 = (x2.toNat : Int)) && decide (2147483648 = (x3.toNat :
    Int)) && decide (3221225471 = (x4.toNat : Int)) && decide (4294967295 = (x5.toNat : Int)) && decide (0 = (x6.toNat
    : Int)) && decide (0 = (x7.toNat : Int)) && decide (0 = (x8.toNat : Int))) = true := by decide +kernel

-- controller_value,construct_from_double: lines 2212-2218
example : holds (do
  let x1 ← Fp.controllerOf (Fp.ofRat Fp.double (7 / 5))
  let x2 ← Fp.controllerOf (Fp.ofRat Fp.double (99 / 1))
  return decide (4294967295 = (x1.toNat : Int)) && decide (4294967295 = (x2.toNat : Int))) = true := by decide +kernel

-- controller_value,equality: lines 2228-2236
example : holds (do
  return decide ((controllerOf7 0) = (0 : Word)) && decide ((controllerOf7 64) = (2147483648 : Word)) && decide
    ((controllerOf7 77) = (2590615194 : Word)) && decide ((controllerOf7 127) = (4294967295 : Word)) && !decide
    ((controllerOf7 0) = (536879104 : Word)) && !decide ((controllerOf7 64) = (4294967295 : Word)) && !decide
    ((4294967295 : Word) = (2147483648 : Word))) = true := by decide +kernel

-- controller_value,as_float: lines 2245-2249
example : holds (do
  return almost Fp.single (Fp.ofRat Fp.single (0 / 1)) (Fp.controllerAs Fp.single (0 : Word)) && almost Fp.single
    (Fp.ofRat Fp.single (1 / 4)) (Fp.controllerAs Fp.single (1073741824 : Word)) && almost Fp.single (Fp.ofRat
    Fp.single (1 / 2)) (Fp.controllerAs Fp.single (2147483648 : Word)) && almost Fp.single (Fp.ofRat Fp.single (3 /
    4)) (Fp.controllerAs Fp.single (3221225471 : Word)) && almost Fp.single (Fp.ofRat Fp.single (1 / 1))
    (Fp.controllerAs Fp.single (4294967295 : Word))) = true := by decide +kernel

-- controller_value,as_double: lines 2258-2262
example : holds (do
  return almost Fp.double (Fp.ofRat Fp.double (0 / 1)) (Fp.controllerAs Fp.double (0 : Word)) && almost Fp.double
    (Fp.ofRat Fp.double (1 / 4)) (Fp.controllerAs Fp.double (1073741824 : Word)) && almost Fp.double (Fp.ofRat
    Fp.double (1 / 2)) (Fp.controllerAs Fp.double (2147483648 : Word)) && near (1 / 10000000000) (Fp.ofRat Fp.single
    (3 / 4)) (Fp.controllerAs Fp.double (3221225471 : Word)) && almost Fp.double (Fp.ofRat Fp.double (1 / 1))
    (Fp.controllerAs Fp.double (4294967295 : Word))) = true := by decide +kernel

-- controller_value,as_uint14: lines 2271-2278
example : holds (do
  return decide (0 = ((controllerAs14 (0 : Word)).toNat : Int)) && decide (4 = ((controllerAs14 (1193046 :
    Word)).toNat : Int)) && decide (1372 = ((controllerAs14 (359891842 : Word)).toNat : Int)) && decide (2048 =
    ((controllerAs14 (536870912 : Word)).toNat : Int)) && decide (3558 = ((controllerAs14 (932904771 : Word)).toNat :
    Int)) && decide (4096 = ((controllerAs14 (1073741824 : Word)).toNat : Int)) && decide (8192 = ((controllerAs14
    (2147483648 : Word)).toNat : Int)) && decide (10995 = ((controllerAs14 (2882400018 : Word)).toNat : Int))) = true := by decide +kernel

-- controller_value,as_uint14: lines 2279-2280
example : holds (do
  return decide (12288 = ((controllerAs14 (3221225472 : Word)).toNat : Int)) && decide (16383 = ((controllerAs14
    (4294967295 : Word)).toNat : Int))) = true := by decide +kernel

-- controller_value,as_uint7: lines 2289-2296
example : holds (do
  return decide (0 = ((controllerAs7 (0 : Word)).toNat : Int)) && decide (0 = ((controllerAs7 (1193046 : Word)).toNat
    : Int)) && decide (10 = ((controllerAs7 (359891842 : Word)).toNat : Int)) && decide (16 = ((controllerAs7
    (536870912 : Word)).toNat : Int)) && decide (27 = ((controllerAs7 (932904771 : Word)).toNat : Int)) && decide (32
    = ((controllerAs7 (1073741824 : Word)).toNat : Int)) && decide (64 = ((controllerAs7 (2147483648 : Word)).toNat :
    Int)) && decide (85 = ((controllerAs7 (2882400018 : Word)).toNat : Int))) = true := by decide +kernel

-- controller_value,as_uint7: lines 2297-2298
example : holds (do
  return decide (96 = ((controllerAs7 (3221225472 : Word)).toNat : Int)) && decide (127 = ((controllerAs7 (4294967295
    : Word)).toNat : Int))) = true := by decide +kernel

-- controller_value,plus_controller_increment: lines 2310-2328
example : holds (do
  let x1 ← controllerAdd (0 : Word) (0 : Word)
  let x2 ← controllerAdd (0 : Word) (44 : Word)
  let x3 ← controllerAdd (0 : Word) (4294967291 : Word)
  let x4 ← controllerAdd (932904771 : Word) (0 : Word)
  let x5 ← controllerAdd (932904771 : Word) (44 : Word)
  let x6 ← controllerAdd (932904771 : Word) (4294967291 : Word)
  let x7 ← controllerAdd (932904771 : Word) (3362062481 : Word)
  let x8 ← controllerAdd (2882400018 : Word) (0 : Word)
  return decide (0 = (x1.toNat : Int)) && decide (44 = (x2.toNat : Int)) && decide (0 = (x3.toNat : Int)) && decide
    (932904771 = (x4.toNat : Int)) && decide (932904815 = (x5.toNat : Int)) && decide (932904766 = (x6.toNat : Int))
    && decide (0 = (x7.toNat : Int)) && decide (2882400018 = (x8.toNat : Int))) = true := by decide +kernel

-- controller_value,plus_controller_increment: lines 2329-2346
example : holds (do
  let x1 ← controllerAdd (2882400018 : Word) (44 : Word)
  let x2 ← controllerAdd (2882400018 : Word) (4294967291 : Word)
  let x3 ← controllerAdd (2882400018 : Word) (2147483647 : Word)
  let x4 ← controllerAdd (4014188144 : Word) (0 : Word)
  let x5 ← controllerAdd (4014188144 : Word) (44 : Word)
  let x6 ← controllerAdd (4014188144 : Word) (4294967291 : Word)
  let x7 ← controllerAdd (4014188144 : Word) (536870912 : Word)
  let x8 ← controllerAdd (4294967295 : Word) (0 : Word)
  return decide (2882400062 = (x1.toNat : Int)) && decide (2882400013 = (x2.toNat : Int)) && decide (4294967295 =
    (x3.toNat : Int)) && decide (4014188144 = (x4.toNat : Int)) && decide (4014188188 = (x5.toNat : Int)) && decide
    (4014188139 = (x6.toNat : Int)) && decide (4294967295 = (x7.toNat : Int)) && decide (4294967295 = (x8.toNat :
    Int))) = true := by decide +kernel

-- controller_value,plus_controller_increment: lines 2348-2349
example : holds (do
  let x1 ← controllerAdd (4294967295 : Word) (44 : Word)
  let x2 ← controllerAdd (4294967295 : Word) (4294967291 : Word)
  return decide (4294967295 = (x1.toNat : Int)) && decide (4294967290 = (x2.toNat : Int))) = true := by decide +kernel

-- controller_value,operator_plus_assign: lines 2363-2395
example : holds (do
  let x1 ← controllerAddAssign (0 : Word) (0 : Word)
  let x2 ← controllerAddAssign x1 (44 : Word)
  let x3 ← controllerAddAssign x2 (4294967291 : Word)
  let x4 ← controllerAddAssign x3 (4294967256 : Word)
  let x5 ← controllerAddAssign (932904771 : Word) (0 : Word)
  let x6 ← controllerAddAssign x5 (44 : Word)
  let x7 ← controllerAddAssign x6 (3362062481 : Word)
  let x8 ← controllerAddAssign (4294967295 : Word) (44 : Word)
  return decide (0 = (x1.toNat : Int)) && decide (44 = (x2.toNat : Int)) && decide (39 = (x3.toNat : Int)) && decide
    (0 = (x4.toNat : Int)) && decide (932904771 = (x5.toNat : Int)) && decide (932904815 = (x6.toNat : Int)) && decide
    (0 = (x7.toNat : Int)) && decide (4294967295 = (x8.toNat : Int))) = true := by decide +kernel

-- controller_value,operator_plus_assign: line 2398
example : holds (do
  let x1 ← controllerAddAssign (4294967295 : Word) (44 : Word)
  let x2 ← controllerAddAssign x1 (4294967291 : Word)
  return decide (4294967290 = (x2.toNat : Int))) = true := by decide +kernel

-- device_identity,constructor: lines 2411-2423
example : holds (do
  return decide (8457 = ((⟨8457, 5936, 49, 65541⟩ : DeviceIdentity).manufacturer.toNat : Int)) && decide (5936 =
    ((⟨8457, 5936, 49, 65541⟩ : DeviceIdentity).family.toNat : Int)) && decide (49 = ((⟨8457, 5936, 49, 65541⟩ :
    DeviceIdentity).model.toNat : Int)) && decide (65541 = ((⟨8457, 5936, 49, 65541⟩ : DeviceIdentity).revision.toNat
    : Int)) && decide (4259840 = ((⟨4259840, 2056, 17, 327938⟩ : DeviceIdentity).manufacturer.toNat : Int)) && decide
    (2056 = ((⟨4259840, 2056, 17, 327938⟩ : DeviceIdentity).family.toNat : Int)) && decide (17 = ((⟨4259840, 2056, 17,
    327938⟩ : DeviceIdentity).model.toNat : Int)) && decide (327938 = ((⟨4259840, 2056, 17, 327938⟩ :
    DeviceIdentity).revision.toNat : Int))) = true := by decide +kernel

end Midi.Conformance
