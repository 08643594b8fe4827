import Verif.Model.Float
import Verif.Model.Messages

/-!
What the translated unit tests of the project need besides the model: the macros of GoogleTest that compare floating point
numbers, and the access to the value of a `std::optional`.

The files of this directory are TESTS of the model and no theorems about it: they state that the model gives the result
which the unit tests of the project expect, for the inputs of these tests. They are evidence that the model is faithful, and
no claim of the manifest rests on them. They are generated by tools/conformance from the sources in /repo/tests.
-/

namespace Midi.Conformance

open Midi.Fp

/-- The test ran to its end and its expectations hold. -/
def holds : Except Fault Bool → Bool
  | .ok b => b
  | .error _ => false

/-- `*o` for an optional that has a value. -/
def valueOf {α : Type} : Option α → Except Fault α
  | some a => .ok a
  | none => .error .assertFailed

/-- `EXPECT_FLOAT_EQ` and `EXPECT_DOUBLE_EQ`: at most four representable numbers apart. -/
def almost (F : Fmt) : Flt → Flt → Bool
  | .fin x, .fin y => x = y || decide (0 < min |x| |y| ∧ |x - y| ≤ 4 * 2 ^ ulpExp F (min |x| |y|))
  | .inf s, .inf t => s = t
  | _, _ => false

/-- `EXPECT_NEAR`. -/
def near (eps : ℚ) : Flt → Flt → Bool
  | .fin x, .fin y => decide (|x - y| ≤ eps)
  | _, _ => false

end Midi.Conformance
