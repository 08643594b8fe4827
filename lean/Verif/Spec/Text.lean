/-!
# Specification: white space in text
-/

namespace Midi.Spec

/-- White space as in C and C++ programs: blank, end of line, tabulators, carriage return and form feed. -/
def whiteSpace (c : Char) : Bool :=
  c = ' ' || c = '\n' || c = '\t' || c = '\r' || c = '\x0b' || c = '\x0c'

/-- The hexadecimal digits. -/
def hexadecimal : List Char :=
  ['0', '1', '2', '3', '4', '5', '6', '7', '8', '9', 'a', 'b', 'c', 'd', 'e', 'f']

/-- The last `n` hexadecimal digits of a number, the most significant one first. -/
def lastDigits (n v : Nat) : List Char :=
  (List.range n).map fun i => hexadecimal.getD (v / 16 ^ (n - 1 - i) % 16) '?'

/-- Words as text: eight hexadecimal digits each, with a single blank between any two. -/
def wordsAsText : List (BitVec 32) → List Char
  | [] => []
  | [w] => lastDigits 8 w.toNat
  | w :: ws => lastDigits 8 w.toNat ++ ' ' :: wordsAsText ws

end Midi.Spec
