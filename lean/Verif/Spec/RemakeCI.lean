import Verif.Model.Sysex

/-!
# Specification: a message made again
-/

namespace Midi.Spec

/-- `m` is the message `s` without the bytes from position `n` on, and with the given bytes at the given positions. -/
def SameBut (n : Nat) (changes : List (Nat × Byte)) (s m : Sysex) : Prop :=
  m.manufacturerID = s.manufacturerID ∧ m.data.length = n ∧ n ≤ s.data.length ∧
  ∀ i, i < n → m.data[i]? = (changes.lookup i).or s.data[i]?

end Midi.Spec
