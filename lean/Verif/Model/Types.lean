import Verif.Model.Basic

/-!
# Scaling functions and integer arithmetic of the value types

Models inc/midi/types.h (the integer part; the floating point conversions are in `Verif.Model.Float`).

A `velocity` and a `pitch_7_9` are represented by their 16 bit `value`, a `pitch_bend`, `pitch_7_25`,
`pitch_bend_sensitivity` and `controller_value` by their 32 bit `value`; `pitch_increment` and `controller_increment`
hold an `int32_t`, represented by its two's complement bit pattern (`BitVec.toInt` is the signed value).
-/

namespace Midi

/-- An `int64_t` computation: the exact result, or signed overflow. -/
def chk64 (x : Int) : Except Fault Int :=
  if -2 ^ 63 ≤ x ∧ x < 2 ^ 63 then .ok x else .error .signedOverflow

/-- `std::clamp(x, lo, hi)`. -/
def clampInt (x lo hi : Int) : Int := if x < lo then lo else if hi < x then hi else x

/-- `std::numeric_limits<int32_t>::min()`. -/
def int32Min : Int := -2 ^ 31
/-- `std::numeric_limits<int32_t>::max()`. -/
def int32Max : Int := 2 ^ 31 - 1
/-- `std::numeric_limits<uint32_t>::max()`. -/
def uint32Max : Int := 2 ^ 32 - 1

/-- `downsample_16_to_7bit` (inc/midi/types.h 256-259). -/
def downsample16to7 (v : U16) : Byte := (v >>> 9).setWidth 8

/-- `downsample_32_to_7bit` (inc/midi/types.h 260-263). -/
def downsample32to7 (v : Word) : Byte := (v >>> 25).setWidth 8

/-- `downsample_32_to_14bit` (inc/midi/types.h 264-267). -/
def downsample32to14 (v : Word) : U16 := (v >>> 18).setWidth 16

/-- `upsample_7_to_16bit` (inc/midi/types.h 438-448). The `int` intermediates stay below 2^17, the results are
narrowed to 16 bit. -/
def upsample7to16 (v : Byte) : U16 :=
  let result : U16 := v.setWidth 16 <<< 9
  if v > 64 then
    let bits : U16 := (v &&& 0x3F).setWidth 16
    result ||| ((bits <<< 3) ||| (bits >>> 3))
  else result

/-- `upsample_7_to_32bit` (inc/midi/types.h 452-463). -/
def upsample7to32 (v : Byte) : Word :=
  let result : Word := v.setWidth 32 <<< 25
  if v > 64 then
    let bits : Word := (v &&& 0x3F).setWidth 32
    let bits := bits ||| (bits <<< 6)
    result ||| ((bits <<< 13) ||| (bits <<< 1) ||| (bits >>> 11))
  else result

/-- `upsample_14_to_32bit` (inc/midi/types.h 467-478). `v << 18u` shifts an `int`: undefined if the result does not
fit 32 bit, i.e. for `v >= 2^14`. -/
def upsample14to32 (v : U16) : Except Fault Word :=
  if v.toNat < 2 ^ 14 then
    let result : Word := v.setWidth 32 <<< 18
    if v > 8192 then
      let bits : Word := (v &&& 0x1FFF).setWidth 32
      .ok (result ||| ((bits <<< 5) ||| (bits >>> 8)))
    else .ok result
  else .error .badShift

/-- The loop of `upsample_x_to_ybit` (inc/midi/types.h 509-513). Each round shifts `repeat_value` by at least one bit
(`repeat_bits >= 1`), so it ends after at most 32 rounds; the first argument counts the remaining rounds. -/
def repeatLoop : Nat → Nat → Word → Word → Word
  | 0, _, result, _ => result
  | n + 1, repeatBits, result, repeatValue =>
    if repeatValue ≠ 0 then repeatLoop n repeatBits (result ||| repeatValue) (repeatValue >>> repeatBits) else result

/-- `upsample_x_to_ybit(v, x, y)` (inc/midi/types.h 482-515). `x` and `y` are `uint8_t` parameters, modelled as
`Nat`; the asserted bounds keep every shift amount below 32. -/
def upsampleXtoY (v : Word) (x y : Nat) : Except Fault Word := do
  assert (decide (x > 1) && decide (y ≤ 32) && decide (x < y))
  let scaleBits := y - x
  let xCenter := (1 : Word) <<< (x - 1)
  let result := v <<< scaleBits
  if v ≤ xCenter then
    return result
  else
    let repeatBits := x - 1
    let repeatMask := ((1 : Word) <<< repeatBits) - 1
    let repeatValue := v &&& repeatMask
    let repeatValue :=
      if scaleBits > repeatBits then repeatValue <<< (scaleBits - repeatBits)
      else repeatValue >>> (repeatBits - scaleBits)
    return repeatLoop 32 repeatBits result repeatValue

/-- `velocity(uint7_t)` (inc/midi/types.h 273-276). -/
def velocityOf7 (v : Byte) : U16 := upsample7to16 v

/-- `velocity::as_uint7()` (inc/midi/types.h 277-280). -/
def velocityAs7 (v : U16) : Byte := downsample16to7 v

/-- `pitch_bend(uint14_t)` (inc/midi/types.h 294-297). -/
def pitchBendOf14 (v : U16) : Except Fault Word := upsample14to32 v

/-- `pitch_bend::as_uint14()` (inc/midi/types.h 298-301). -/
def pitchBendAs14 (v : Word) : U16 := downsample32to14 v

/-- `pitch_7_9(note_nr_t)` (inc/midi/types.h 332-335). -/
def pitch79OfNote (n : Byte) : U16 := n.setWidth 16 <<< 9

/-- `pitch_7_9::note_nr()` (inc/midi/types.h 336-339). -/
def pitch79Note (v : U16) : Byte := (v >>> 9).setWidth 8

/-- `pitch_7_25(note_nr_t)` (inc/midi/types.h 353-356): `n << 25` shifts an `int`, undefined for `n >= 128`. -/
def pitch725OfNote (n : Byte) : Except Fault Word :=
  if n < 128 then .ok (n.setWidth 32 <<< 25) else .error .badShift

/-- `pitch_7_25::note_nr()` (inc/midi/types.h 366-369). -/
def pitch725Note (v : Word) : Byte := (v >>> 25).setWidth 8

/-- `pitch_7_25(pitch_7_9)`, `operator=(pitch_7_9)` (inc/midi/types.h 357-360, 768-772). -/
def pitch725Of79 (v : U16) : Word := v.setWidth 32 <<< 16

/-- `controller_value(uint7_t)` (inc/midi/types.h 410-413). -/
def controllerOf7 (v : Byte) : Word := upsample7to32 v

/-- `controller_value(uint14_t)` (inc/midi/types.h 406-409). -/
def controllerOf14 (v : U16) : Except Fault Word := upsample14to32 v

/-- `controller_value::as_uint7()` (inc/midi/types.h 423-426). -/
def controllerAs7 (v : Word) : Byte := downsample32to7 v

/-- `controller_value::as_uint14()` (inc/midi/types.h 419-422). -/
def controllerAs14 (v : Word) : U16 := downsample32to14 v

/-- `pitch_increment::operator+` and `operator+=` (inc/midi/types.h 652-665). -/
def pitchIncAdd (a b : Word) : Except Fault Word := do
  let s ← chk64 (a.toInt + b.toInt)
  return BitVec.ofInt 32 (clampInt s int32Min int32Max)

/-- `pitch_7_25::operator+(pitch_increment)` and `operator+=` (inc/midi/types.h 774-779, 810-814). -/
def pitch725Add (p inc : Word) : Except Fault Word := do
  let s ← chk64 (p.toNat + inc.toInt)
  return BitVec.ofInt 32 (clampInt s 0 uint32Max)

/-- `operator*(pitch_bend, pitch_bend_sensitivity)` (inc/midi/types.h 818-830); also used by the version with swapped
arguments (384-387). Division of `int64_t` truncates toward zero. -/
def bendTimesSensitivity (pb sens : Word) : Except Fault Word := do
  let result ← chk64 ((pb.toNat : Int) - 0x80000000)
  if result ≠ 0 then
    let result ← chk64 (result * sens.toNat)
    let result ← chk64 (result.tdiv 2147483648)
    return BitVec.ofInt 32 (clampInt result int32Min int32Max)
  else
    return 0

/-- `controller_value::operator+(controller_increment)` and `operator+=` (inc/midi/types.h 854-870). -/
def controllerAdd (v inc : Word) : Except Fault Word := do
  let r ← chk64 (v.toNat + inc.toInt)
  if r ≤ 0 then return 0
  else if r > 0xFFFFFFFF then return 0xFFFFFFFF
  else return BitVec.ofInt 32 r

end Midi
