import Verif.Model.Packet

/-!
# A recording

A program writes every packet it receives as a line of text, and may be stopped at any moment. Another program reads what has been
written.
-/

namespace Midi.Spec

/-- The lines that are written for packets. -/
def recording (ps : List Packet) : List Char := (ps.map fun p => writePacket p ++ ['\n']).flatten

/-- The packets whose lines, including their ends, are complete after `n` characters. -/
def complete : Nat → List Packet → List Packet
  | _, [] => []
  | n, p :: ps => if (writePacket p).length < n then p :: complete (n - ((writePacket p).length + 1)) ps else []

/-- A text without its last line, if that line has no end. -/
def wholeLines (text : List Char) : List Char := (text.reverse.dropWhile (· != '\n')).reverse

end Midi.Spec
