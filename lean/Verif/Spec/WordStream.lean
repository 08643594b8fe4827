import Verif.Model.Basic

/-!
# Specification: messages in a sequence of words, and numbers as text

Written after the Universal MIDI Packet specification (table "Message Type allocation") and independently of the model.
-/

namespace Midi.Spec

/-- The number of words of a message whose first four bits are `t`. -/
def wordsOfType (t : Nat) : Nat :=
  if t ∈ [0, 1, 2, 6, 7] then 1 else if t ∈ [3, 4, 8, 9, 10] then 2 else if t ∈ [11, 12] then 3 else 4

/-- The number of words of a message that begins with the word `w`. -/
def wordsFrom (w : BitVec 32) : Nat := wordsOfType (w.toNat / 2 ^ 28)

/-- One complete message. -/
def WholeMessage (m : List (BitVec 32)) : Prop := ∃ w t, m = w :: t ∧ m.length = wordsFrom w

/-- The beginning of a message that lacks at least one word; or nothing at all. -/
def Incomplete (r : List (BitVec 32)) : Prop := ∀ w t, r = w :: t → r.length < wordsFrom w

/-- The words are the messages `ms`, one after the other, and then the words `rest` of an incomplete message. -/
def Cut (words : List (BitVec 32)) (ms : List (List (BitVec 32))) (rest : List (BitVec 32)) : Prop :=
  words = ms.flatten ++ rest ∧ (∀ m ∈ ms, WholeMessage m) ∧ Incomplete rest

/-- A hexadecimal number as someone may type it: maybe a plus sign (`some false`) or a minus sign (`some true`), maybe a prefix `0x`
(`some false`) or `0X` (`some true`), and digits, each one in lower case (`false`) or upper case (`true`). -/
structure Numeral where
  sign : Option Bool := none
  base : Option Bool := none
  digits : List (Fin 16 × Bool)

namespace Numeral

/-- The character of a digit. -/
def digitText (d : Fin 16 × Bool) : Char :=
  (if d.2 then "0123456789ABCDEF".toList else "0123456789abcdef".toList).getD d.1.val '0'

/-- The text of the number. -/
def text (n : Numeral) : List Char :=
  (match n.sign with | none => [] | some false => ['+'] | some true => ['-']) ++
    (match n.base with | none => [] | some false => ['0', 'x'] | some true => ['0', 'X']) ++
    n.digits.map digitText

/-- The value of its digits. -/
def value (n : Numeral) : Nat := n.digits.foldl (fun acc d => 16 * acc + d.1.val) 0

/-- It has digits, and its value fits into a word. -/
def Valid (n : Numeral) : Prop := n.digits ≠ [] ∧ n.value < 2 ^ 32

instance (n : Numeral) : Decidable n.Valid := by unfold Valid; infer_instance

/-- The word it stands for; negative numbers are modulo 2^32. -/
def word (n : Numeral) : BitVec 32 := BitVec.ofInt 32 (if n.sign = some true then - (n.value : Int) else n.value)

end Numeral

/-- Numbers, each one followed by a separator. -/
def numerals : List (Numeral × List Char) → List Char
  | [] => []
  | (n, sep) :: rest => n.text ++ sep ++ numerals rest

/-- The characters a number may begin with, and white space. -/
def mayBegin : List Char := "0123456789abcdefABCDEF+- \t\n\r\x0b\x0c".toList

/-- A text that does not begin with a number of 32 bit: it begins with another character, with a sign and a character that is neither a
digit nor a sign, or with a number that is too large and does not have digits behind it. -/
inductive NoNumber : List Char → Prop
  | other (c : Char) (cs : List Char) (h : c ∉ mayBegin) : NoNumber (c :: cs)
  | sign (s c : Char) (cs : List Char) (h : s = '+' ∨ s = '-') (h' : c ∉ mayBegin) : NoNumber (s :: c :: cs)
  | large (n : Numeral) (cs : List Char) (h : 2 ^ 32 ≤ n.value) (h' : ∀ c ∈ cs.head?, c ∉ "0123456789abcdefABCDEF".toList) :
    NoNumber (n.text ++ cs)

end Midi.Spec
