import Verif.Model.CollectorHistory
import Verif.Model.ByteStream
import Verif.Spec.Sysex

/-!
# How much of a message has been received (C96)
-/

namespace Midi.Spec

/-- The packets fed to a collector in a history of calls. -/
def fedPackets (ops : List CollectorOp) : List Packet :=
  ops.flatMap fun
    | .feed ps => ps
    | _ => []

/-- The number of payload bytes in sysex7 packets since, and with, the last one that begins a message (a complete or start packet). -/
def inProgress7 (ps : List Packet) : Nat :=
  ps.foldl (fun n p => if IsSysex7 p then if formatCode p ≤ 1 then (payload7 p).length else n + (payload7 p).length else n) 0

/-- The number of payload bytes in sysex8 packets since, and with, the last one that begins a message. -/
def inProgress8 (ps : List Packet) : Nat :=
  ps.foldl (fun n p => if IsSysex8 p then if formatCode p ≤ 1 then (payload8 p).length else n + (payload8 p).length else n) 0

/-- The bytes fed to a parser in a history of calls. -/
def bytesFed (ops : List Parser.Op) : List Byte :=
  ops.flatMap fun
    | .feed bs => bs
    | _ => []

/-- The number of data bytes in a byte stream since the last F0. -/
def dataSinceF0 (bs : List Byte) : Nat :=
  bs.foldl (fun n b => if b = 0xF0 then 0 else if b < 0x80 then n + 1 else n) 0

end Midi.Spec
