/-!
# Basic types of the model

`uint8_t`, `uint16_t`, `uint32_t` are modelled by `BitVec 8`, `BitVec 16`, `BitVec 32`
(inc/midi/types.h lines 40-49: the aliases `uint2_t`, `uint4_t`, `uint7_t` are all `std::uint8_t`,
`uint14_t` is `std::uint16_t`, `uint28_t` is `std::uint32_t`).
-/

namespace Midi

/-- `uint8_t` and the aliases `uint2_t`, `uint4_t`, `uint7_t`, `group_t`, `status_t`, `channel_t`, `note_nr_t`,
`controller_t`, `program_t` (inc/midi/types.h 40-43, 53-58). -/
abbrev Byte := BitVec 8

/-- `uint16_t` and `uint14_t` (inc/midi/types.h 44-45). -/
abbrev U16 := BitVec 16

/-- `uint32_t`, `uint28_t`, `muid_t`, `manufacturer_t` (inc/midi/types.h 46-47, 59-60). -/
abbrev Word := BitVec 32

/-- The ways in which an execution of the modelled C++ code can go wrong. An operation that runs into one of these
returns `Except.error` of it, so that a theorem that shows `Except.ok` excludes all of them. -/
inductive Fault where
  /-- a failed `assert(...)` -/
  | assertFailed
  /-- read or write outside of an array, vector or string view (undefined behaviour) -/
  | outOfBounds
  /-- overflow of signed integer arithmetic (undefined behaviour) -/
  | signedOverflow
  /-- left shift of a signed value whose result does not fit the unsigned type (undefined behaviour in C++17) -/
  | badShift
  /-- conversion of a floating point value that does not fit the integer type (undefined behaviour) -/
  | badFloatCast
  /-- division by zero -/
  | divByZero
  /-- a `std::length_error` thrown by the standard library -/
  | lengthError
deriving DecidableEq, Repr

/-- `assert(c)` in a build with assertions enabled. -/
def assert (c : Bool) : Except Fault Unit :=
  if c then .ok () else .error .assertFailed

end Midi
