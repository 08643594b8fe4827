import Verif.Model.Packet

/-!
# Specification: reserved bits

The bits of a packet which carry information are given by a list of masks, one for each byte; bytes beyond the end of
the list carry none.
-/

namespace Midi.Spec

/-- All bits of the sixteen bytes of `p` which are not in the masks are zero. -/
def OnlyBits (masks : List Byte) (p : Packet) : Prop := ∀ i, i < 16 → p.byteAt i &&& ~~~ masks.getD i 0 = 0

instance (masks : List Byte) (p : Packet) : Decidable (OnlyBits masks p) := by unfold OnlyBits; infer_instance

/-- From byte `n` on, `p` has no byte other than zero behind a zero byte: text is padded with zeros. -/
def ZeroPadded (n : Nat) (p : Packet) : Prop := ∀ i, i < 15 → n ≤ i → p.byteAt i = 0 → p.byteAt (i + 1) = 0

instance (n : Nat) (p : Packet) : Decidable (ZeroPadded n p) := by unfold ZeroPadded; infer_instance

end Midi.Spec
