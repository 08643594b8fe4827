import Mathlib.Data.Rat.Floor

/-!
What floating point formats can represent, independently of the model.
-/

namespace Midi.Spec.Fp

/-- The finite numbers of an IEEE 754 binary format: an integer with at most `prec` binary digits, times a power of two that
is at least `2 ^ emin`; smaller than `2 ^ emax`. -/
def Representable (prec : ℕ) (emin emax : ℤ) (q : ℚ) : Prop :=
  (∃ m e : ℤ, |m| < 2 ^ prec ∧ emin ≤ e ∧ q = m * 2 ^ e) ∧ |q| < 2 ^ emax

/-- The finite values of `float`. -/
def IsFloat (q : ℚ) : Prop := Representable 24 (-149) 128 q

/-- The finite values of `double`. -/
def IsDouble (q : ℚ) : Prop := Representable 53 (-1074) 1024 q

end Midi.Spec.Fp
