import Verif.Model.Types

/-!
# Remaining operations of the value types (inc/midi/types.h)
-/

namespace Midi

/-- `pitch_increment::operator+=` (inc/midi/types.h 652-657): the new value. -/
def pitchIncAddAssign (value inc : Word) : Except Fault Word := do
  let s ← chk64 (value.toInt + inc.toInt)
  return BitVec.ofInt 32 (clampInt s int32Min int32Max)

/-- `pitch_7_25::operator+=(pitch_increment)` (inc/midi/types.h 810-814): the new value. -/
def pitch725AddAssign (value inc : Word) : Except Fault Word := do
  let s ← chk64 (value.toNat + inc.toInt)
  return BitVec.ofInt 32 (clampInt s 0 uint32Max)

/-- `controller_value::operator+=` (inc/midi/types.h 867-870): the new value. -/
def controllerAddAssign (value inc : Word) : Except Fault Word := controllerAdd value inc

/-- `operator*(pitch_bend_sensitivity, pitch_bend)` (inc/midi/types.h 384-387). -/
def sensitivityTimesBend (sens pb : Word) : Except Fault Word := bendTimesSensitivity pb sens

/-- `pitch_bend_sensitivity()` (inc/midi/types.h 379-382). -/
def defaultSensitivity : Except Fault Word := pitch725OfNote 2

/-- `pitch_bend::reset()` (inc/midi/types.h 302-305): the new value. -/
def pitchBendReset (_value : Word) : Word := 0x80000000

/-- The default `pitch_bend` (inc/midi/types.h 100-102). -/
def defaultPitchBend : Word := 0x80000000

/-- The default `velocity` (inc/midi/types.h 80-82). -/
def defaultVelocity : U16 := 0x8000

/-- `controller_value(pitch_7_25)` (inc/midi/types.h 414-417). -/
def controllerOfPitch (p : Word) : Word := p

/-- `pitch_7_25(controller_value)` (inc/midi/types.h 361-364). -/
def pitchOfController (v : Word) : Word := v

end Midi
