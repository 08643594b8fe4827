import Verif.Model.Types
import Mathlib.Data.Rat.Floor
import Mathlib.Data.Int.Log

/-!
Conversions between the value types of inc/midi/types.h and `float` / `double`.

Floating point numbers are modelled as exact rationals together with infinities and NaN, and every arithmetic operation
rounds its exact result to the nearest representable number (ties to even), as IEEE 754 prescribes for binary32 (`float`)
and binary64 (`double`). The two zeros are not distinguished: no operation below divides by zero or looks at the sign of a
zero. Operations on `float` operands are assumed to be evaluated in `float` (`FLT_EVAL_METHOD == 0`).
-/

namespace Midi.Fp

/-- The parameters of an IEEE 754 binary format: digits of the significand, exponent of the smallest positive number and
exponent of the first power of two that is too large. -/
structure Fmt where
  prec : ℕ
  emin : ℤ
  emax : ℤ
deriving DecidableEq

/-- `float` is IEEE 754 binary32. -/
def single : Fmt := ⟨24, -149, 128⟩

/-- `double` is IEEE 754 binary64. -/
def double : Fmt := ⟨53, -1074, 1024⟩

/-- The nearest integer, ties go to the even one. -/
def rne (y : ℚ) : ℤ :=
  if y - ⌊y⌋ < 1 / 2 then ⌊y⌋
  else if 1 / 2 < y - ⌊y⌋ then ⌊y⌋ + 1
  else if ⌊y⌋ % 2 = 0 then ⌊y⌋
  else ⌊y⌋ + 1

/-- The exponent of the last digit of the significand of numbers of the size of `x > 0`. -/
def ulpExp (F : Fmt) (x : ℚ) : ℤ := max (Int.log 2 x - (F.prec - 1)) F.emin

/-- Rounding of a positive number. -/
def roundPos (F : Fmt) (x : ℚ) : ℚ := rne (x / 2 ^ ulpExp F x) * 2 ^ ulpExp F x

/-- Rounding to the nearest number with the precision of the format, ties to even, without an upper limit for exponents. -/
def round (F : Fmt) (x : ℚ) : ℚ := if 0 < x then roundPos F x else if x < 0 then -roundPos F (-x) else 0

/-- The values of `float` and `double`. -/
inductive Flt where
  | nan
  | inf (negative : Bool)
  | fin (q : ℚ)
deriving DecidableEq

/-- The result of an operation whose exact result is `q`: rounded, infinite if it is too large. -/
def ofRat (F : Fmt) (q : ℚ) : Flt :=
  if round F q ≥ 2 ^ F.emax then .inf false
  else if round F q ≤ -2 ^ F.emax then .inf true
  else .fin (round F q)

namespace Flt

/-- Negation, exact. -/
def neg : Flt → Flt
  | nan => nan
  | inf s => inf (!s)
  | fin q => fin (-q)

/-- Addition. -/
def add (F : Fmt) : Flt → Flt → Flt
  | nan, _ | _, nan => nan
  | inf s, inf t => if s = t then inf s else nan
  | inf s, fin _ => inf s
  | fin _, inf s => inf s
  | fin x, fin y => ofRat F (x + y)

/-- Subtraction. -/
def sub (F : Fmt) (x y : Flt) : Flt := add F x y.neg

/-- Multiplication. -/
def mul (F : Fmt) : Flt → Flt → Flt
  | nan, _ | _, nan => nan
  | inf s, inf t => inf (s ^^ t)
  | inf s, fin y => if y = 0 then nan else inf (s ^^ decide (y < 0))
  | fin x, inf t => if x = 0 then nan else inf (t ^^ decide (x < 0))
  | fin x, fin y => ofRat F (x * y)

/-- Division; the divisors below are never zero. -/
def div (F : Fmt) : Flt → Flt → Flt
  | nan, _ | _, nan => nan
  | inf _, inf _ => nan
  | inf s, fin y => inf (s ^^ decide (y < 0))
  | fin _, inf _ => fin 0
  | fin x, fin y => if y = 0 then (if x = 0 then nan else inf (decide (x < 0))) else ofRat F (x / y)

/-- `x <= y`: false if one of them is NaN. -/
def le : Flt → Flt → Bool
  | nan, _ | _, nan => false
  | inf true, _ => true
  | inf false, inf false => true
  | inf false, _ => false
  | fin _, inf s => !s
  | fin x, fin y => decide (x ≤ y)

/-- `x < y`: false if one of them is NaN. -/
def lt : Flt → Flt → Bool
  | nan, _ | _, nan => false
  | x, y => !le y x

/-- Conversion to another format. -/
def convert (F : Fmt) : Flt → Flt
  | fin q => ofRat F q
  | x => x

/-- `std::round`: the nearest integer, ties go away from zero. The result is always representable, since a number that is not
an integer is smaller than 2 to the precision of its format. -/
def stdRound : Flt → Flt
  | fin q => fin (if 0 ≤ q then ⌊q + 1 / 2⌋ else -⌊-q + 1 / 2⌋)
  | x => x

/-- `static_cast` to an unsigned integer with `n` bits: the fraction is discarded; undefined behaviour if the result is out of
range, or if there is none. -/
def toUnsigned (n : Nat) : Flt → Except Fault (BitVec n)
  | fin q =>
    if 0 ≤ (if 0 ≤ q then ⌊q⌋ else ⌈q⌉) ∧ (if 0 ≤ q then ⌊q⌋ else ⌈q⌉) < 2 ^ n then
      .ok (BitVec.ofInt n (if 0 ≤ q then ⌊q⌋ else ⌈q⌉))
    else .error .badFloatCast
  | _ => .error .badFloatCast

/-- Conversion of an unsigned integer. All of them are converted to `double`, or have 16 bits, so that this is exact. -/
def ofUnsigned {n : Nat} (v : BitVec n) : Flt := fin v.toNat

end Flt

open Flt

/-- `impl::from_float_0_1<T, F>(f)` (inc/midi/types.h 520-543) for an unsigned type `T` with `n` bits. The operations are
carried out in `double`, since `scale` and `0.5` are; the conversion of a `float` to `double` is exact. The last sum wraps
modulo `2^n`. -/
def fromFloat01 (n : Nat) (f : Flt) : Except Fault (BitVec n) := do
  if f.le (fin 0) then return 0
  else if (fin 1).le f then return BitVec.allOnes n
  else if f.le (fin (1 / 2)) then
    let d := mul double f (fin ((2 ^ n - 1 : ℕ) + 1))
    d.toUnsigned n
  else
    let mid := (BitVec.allOnes n >>> 1) + 1
    let d := mul double (sub double f (fin (1 / 2))) (fin (2 ^ n - 1 : ℕ))
    return mid + (← d.toUnsigned n)

/-- `impl::to_float_0_1<T, F>(value)` (inc/midi/types.h 545-555): the quotients are of type `double`. -/
def toFloat01 (F : Fmt) {n : Nat} (value : BitVec n) : Flt :=
  let center := (BitVec.allOnes n >>> 1) + 1
  if value ≤ center then
    (div double (div double (ofUnsigned value) (ofUnsigned center)) (fin 2)).convert F
  else
    (div double (ofUnsigned value) (fin (2 ^ n - 1 : ℕ))).convert F

/-- `velocity(float)`, `velocity(double)` (inc/midi/types.h 559-567). -/
def velocityOf (f : Flt) : Except Fault U16 := fromFloat01 16 f

/-- `velocity::as_float()` and `velocity::as_double()` (inc/midi/types.h 569-577). -/
def velocityAs (F : Fmt) (v : U16) : Flt := toFloat01 F v

/-- `pitch_bend(float)` and `pitch_bend(double)` (inc/midi/types.h 581-589): sum and quotient in the format of the argument. -/
def pitchBendOf (F : Fmt) (f : Flt) : Except Fault Word := fromFloat01 32 (div F (add F f (fin 1)) (fin 2))

/-- `pitch_bend::as_double()` (inc/midi/types.h 596-602). -/
def pitchBendAsDouble (v : Word) : Flt :=
  if v ≥ 0x80000000 then div double (ofUnsigned (v - 0x80000000)) (fin 0x7FFFFFFF)
  else div double (ofUnsigned (0x80000000 - v)) (fin (-0x80000000))

/-- `pitch_bend::as_float()` (inc/midi/types.h 591-594). -/
def pitchBendAsFloat (v : Word) : Flt := (pitchBendAsDouble v).convert single

/-- `pitch_7_9(float)` and `pitch_7_9(double)` (inc/midi/types.h 669-703). -/
def pitch79Of (F : Fmt) (f : Flt) : Except Fault U16 :=
  if f.le (fin 0) then return 0
  else if (fin 128).le f then return 0xFFFF
  else
    let result := (mul F f (fin 512)).stdRound
    if result.lt (fin 0x10000) then result.toUnsigned 16 else return 0xFFFF

/-- `pitch_7_9::as_float()` and `pitch_7_9::as_double()` (inc/midi/types.h 705-715). -/
def pitch79As (F : Fmt) (v : U16) : Flt := div F (ofUnsigned v) (fin 512)

/-- `pitch_7_25(float)` and `pitch_7_25(double)` (inc/midi/types.h 719-755). -/
def pitch725Of (F : Fmt) (f : Flt) : Except Fault Word :=
  if f.le (fin 0) then return 0
  else if (fin 128).le f then return 0xFFFFFFFF
  else
    let result := (mul F f (fin 33554432)).stdRound
    if result.lt (fin 4294967296) then result.toUnsigned 32 else return 0xFFFFFFFF

/-- `pitch_7_25::as_double()` (inc/midi/types.h 762-766). -/
def pitch725AsDouble (v : Word) : Flt := div double (ofUnsigned v) (fin 33554432)

/-- `pitch_7_25::as_float()` (inc/midi/types.h 757-760). -/
def pitch725AsFloat (v : Word) : Flt := (pitch725AsDouble v).convert single

/-- The negation of an `int32_t`: undefined behaviour for the smallest one. -/
def negate (v : Word) : Except Fault Word :=
  if v = 0x80000000 then .error .signedOverflow else .ok (-v)

/-- `pitch_increment(float)` (inc/midi/types.h 608-626). The conversion to `int32_t` keeps all bits. -/
def pitchIncrementOfFloat (f : Flt) : Except Fault Word := do
  if (fin 64).le f then return 0x7FFFFFFF
  else if f.le (fin (-64)) then return 0x80000000
  else if (fin 0).le f then pitch725Of single f
  else negate (← pitch725Of single f.neg)

/-- `pitch_increment(double)` (inc/midi/types.h 628-650). -/
def pitchIncrementOfDouble (d : Flt) : Except Fault Word := do
  if (fin 64).le d then return 0x7FFFFFFF
  else if d.le (fin (-64)) then return 0x80000000
  else if (fin 0).le d then
    let result ← pitch725Of double d
    if result ≤ 0x7FFFFFFF then return result else return 0x7FFFFFFF
  else negate (← pitch725Of double d.neg)

/-- `pitch_7_25::operator+(double)` (inc/midi/types.h 786-806). -/
def pitch725Detune (v : Word) (detune : Flt) : Except Fault Word := do
  let r : Int := v.toNat
  if (fin 0).le detune then
    let inc ← pitch725Of double detune
    let r ← chk64 (r + inc.toNat)
    return BitVec.ofInt 32 (if r > 0xFFFFFFFF then 0xFFFFFFFF else r)
  else
    let dec ← pitch725Of double detune.neg
    let r ← chk64 (r - dec.toNat)
    return BitVec.ofInt 32 (if r < 0 then 0 else r)

/-- `pitch_7_25::operator+(float)` (inc/midi/types.h 781-784): the conversion to `double` is exact. -/
def pitch725DetuneFloat (v : Word) (detune : Flt) : Except Fault Word := pitch725Detune v (detune.convert double)

/-- `controller_value(float)`, `controller_value(double)` (inc/midi/types.h 834-842). -/
def controllerOf (f : Flt) : Except Fault Word := fromFloat01 32 f

/-- `controller_value::as_float()` and `controller_value::as_double()` (inc/midi/types.h 844-852). -/
def controllerAs (F : Fmt) (v : Word) : Flt := toFloat01 F v

end Midi.Fp
