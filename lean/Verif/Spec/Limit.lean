import Verif.Spec.Sysex
import Verif.Spec.Store

/-!
# Specification: which messages pass a collector with size limit (C111)
-/

namespace Midi.Spec

/-- The number of bytes `send_sysex7` puts into all packets of a message: manufacturer id and data. -/
def bytesSent (m : Sysex) : Nat := (idBytes7 m.manufacturerID).length + m.data.length

/-- The message does not fit into one packet. -/
def SeveralPackets (m : Sysex) : Prop := 6 < bytesSent m

instance (m : Sysex) : Decidable (SeveralPackets m) := inferInstanceAs (Decidable (_ < _))

/-- The number of bytes in its last packet. -/
def bytesInLast (m : Sysex) : Nat := (bytesSent m - 1) % 6 + 1

/-- The data fits into a limit of `n` bytes, and so does a full packet. -/
def Fits (n : Nat) (m : Sysex) : Prop := 6 ≤ n ∧ m.data.length ≤ n

instance (n : Nat) (m : Sysex) : Decidable (Fits n m) := inferInstanceAs (Decidable (_ ∧ _))

/-- The message does not fit, but it does without its last packet. -/
def JustTooLarge (n : Nat) (m : Sysex) : Prop := 6 ≤ n ∧ n < m.data.length ∧ m.data.length ≤ n + bytesInLast m

instance (n : Nat) (m : Sysex) : Decidable (JustTooLarge n m) := inferInstanceAs (Decidable (_ ∧ _))

/-- The messages that pass, among those of several packets: those that fit, but not the one after a message that is just too large. -/
def passing (n : Nat) : List Sysex → List Sysex
  | [] => []
  | [m] => if Fits n m then [m] else []
  | m :: next :: ms =>
    if Fits n m then m :: passing n (next :: ms)
    else if JustTooLarge n m then passing n ms
    else passing n (next :: ms)

/-- The size of the chunks for a receiver with maximum message size `n`: what remains beside manufacturer id, the common bytes of a
message with property data, and the header. -/
def chunkSize (n : Nat) (header : List Byte) : Nat := min 16383 (n - 22 - header.length)

end Midi.Spec
