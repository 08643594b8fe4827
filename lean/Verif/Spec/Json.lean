import Verif.Model.Sysex

/-!
# A parser for flat JSON objects

Accepts a subset of JSON (RFC 8259): objects with at least one member, whose values are strings and integers, without
white space and without escape sequences in strings. What it accepts is JSON with the meaning it returns.
-/

namespace Midi.Spec.Json

/-- A value: a string or an integer. -/
inductive Value where
  | str (s : List Byte)
  | num (n : Int)
deriving DecidableEq, Repr

/-- A character that stands for itself in a JSON string: no control character, quotation mark or backslash. -/
def plain (c : Byte) : Bool := decide (0x20 ≤ c.toNat) && c != 0x22 && c != 0x5C

/-- The rest of a string after its opening quotation mark: the characters of the string, and what follows its closing
quotation mark. -/
def string : List Byte → Option (List Byte × List Byte)
  | [] => none
  | c :: cs =>
    if c = 0x22 then some ([], cs)
    else if plain c then (string cs).map fun (s, r) => (c :: s, r)
    else none

/-- A decimal digit. -/
def digit (c : Byte) : Bool := decide (0x30 ≤ c.toNat) && decide (c.toNat ≤ 0x39)

/-- The number written with the given digits. -/
def valueOf (ds : List Byte) : Nat := ds.foldl (fun a d => 10 * a + (d.toNat - 0x30)) 0

/-- The digits at the beginning, and the rest. -/
def digits : List Byte → List Byte × List Byte
  | [] => ([], [])
  | c :: cs => if digit c then (c :: (digits cs).1, (digits cs).2) else ([], c :: cs)

/-- A number without sign: at least one digit, and no leading zero. Returns the number and what follows. -/
def natural (l : List Byte) : Option (Nat × List Byte) :=
  if (digits l).1 = [] then none
  else if (digits l).1.head? = some 0x30 ∧ (digits l).1.length ≠ 1 then none
  else some (valueOf (digits l).1, (digits l).2)

/-- An integer, and what follows. -/
def integer (l : List Byte) : Option (Int × List Byte) :=
  if l.head? = some 0x2D then (natural l.tail).map fun (n, r) => (-(n : Int), r)
  else (natural l).map fun (n, r) => ((n : Int), r)

/-- A value, and what follows. -/
def value (l : List Byte) : Option (Value × List Byte) :=
  if l.head? = some 0x22 then (string l.tail).map fun (s, r) => (.str s, r)
  else (integer l).map fun (n, r) => (.num n, r)

/-- The members of an object up to its end, which has to be the end of the text. `fuel` bounds the number of members. -/
def members : (fuel : Nat) → List Byte → Option (List (List Byte × Value))
  | 0, _ => none
  | n + 1, l =>
    if l.head? = some 0x22 then
      match string l.tail with
      | none => none
      | some (k, r) =>
        if r.head? = some 0x3A then
          match value r.tail with
          | none => none
          | some (v, r) =>
            if r = [0x7D] then some [(k, v)]
            else if r.head? = some 0x2C then (members n r.tail).map ((k, v) :: ·)
            else none
        else none
    else none

/-- The members of the object written in the text. -/
def object (l : List Byte) : Option (List (List Byte × Value)) :=
  if l.head? = some 0x7B then members l.length l.tail else none

/-- The value meant by an option: an integer if it is written like one, and a string otherwise. -/
def optionValue (v : List Byte) : Value :=
  match integer v with
  | some (n, []) => .num n
  | _ => .str v

end Midi.Spec.Json
