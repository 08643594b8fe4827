import Verif.Model.Packet
import Verif.Model.Sysex

/-!
# Specification: traffic of several senders on one connection (C82)
-/

namespace Midi.Spec

/-- `Interleaved ls w`: `w` is what arrives if the lists in `ls` are sent at the same time, each of them in order. -/
inductive Interleaved {α : Type} : List (List α) → List α → Prop
  | nothing (ls : List (List α)) : (∀ l ∈ ls, l = []) → Interleaved ls []
  | next (ls : List (List α)) (i : Nat) (a : α) (l w : List α) :
      ls[i]? = some (a :: l) → Interleaved (ls.set i l) w → Interleaved ls (a :: w)

/-- Someone who sends messages on a group and, for 8 bit sysex, with a stream id. -/
structure Sender where
  group : Byte
  stream : Byte := 0
  messages : List Sysex

end Midi.Spec
