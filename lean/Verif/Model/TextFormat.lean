import Verif.Model.Packet

/-!
# Packets and the formatting state of streams

`Verif.Model.Packet` models the characters written by `operator<<` for a stream with the default format. This file models the
same functions of src/universal_packet.cpp for an output stream in any formatting state, and what they leave behind in that
state. The behaviour of the standard library (`std::num_put`, `std::setw`, ...) follows the C++ standard for the classic
locale; the streams are assumed not to fail while writing.
-/

namespace Midi

/-- `std::ios_base::basefield`. -/
inductive BaseField where
  | none | dec | oct | hex
deriving DecidableEq, Repr

/-- `std::ios_base::adjustfield`. -/
inductive AdjustField where
  | none | left | right | internal
deriving DecidableEq, Repr

/-- `std::ios_base::fmtflags`: the flags that matter for unsigned integers; `other` stands for all the others (`boolalpha`,
`showpos`, `showpoint`, `unitbuf`, the `floatfield`), which packets never look at. -/
structure FmtFlags where
  base : BaseField := .dec
  adjust : AdjustField := .none
  showbase : Bool := false
  uppercase : Bool := false
  skipws : Bool := true
  other : Nat := 0
deriving DecidableEq, Repr

/-- An output stream: format flags, fill character, field width and the characters written so far. The default values are
those of a new stream (`std::basic_ios::init`). -/
structure OStream where
  flags : FmtFlags := {}
  fill : Char := ' '
  width : Nat := 0
  out : List Char := []
deriving DecidableEq, Repr

namespace OStream

/-- The digits of an unsigned number as written by `std::num_put`: base and case depend on the flags. -/
def digits (f : FmtFlags) (v : Word) : List Char :=
  let d := Nat.toDigits (match f.base with | .hex => 16 | .oct => 8 | _ => 10) v.toNat
  if f.uppercase then d.map Char.toUpper else d

/-- The prefix written for `showbase`. There is none for the number 0. -/
def basePrefix (f : FmtFlags) (v : Word) : List Char :=
  if f.showbase && v != 0 then
    match f.base with
    | .hex => if f.uppercase then ['0', 'X'] else ['0', 'x']
    | .oct => ['0']
    | _ => []
  else []

/-- `out << v` for an unsigned number: prefix, digits and padding, after which the width is 0 again. -/
def putUnsigned (s : OStream) (v : Word) : OStream :=
  let pre := basePrefix s.flags v
  let dig := digits s.flags v
  let pad := List.replicate (s.width - (pre.length + dig.length)) s.fill
  let text :=
    match s.flags.adjust with
    | .left => pre ++ dig ++ pad
    | .internal => if s.flags.base = .hex then pre ++ pad ++ dig else pad ++ pre ++ dig
    | _ => pad ++ pre ++ dig
  { s with width := 0, out := s.out ++ text }

/-- `out << c` for a character. -/
def putChar (s : OStream) (c : Char) : OStream :=
  let pad := List.replicate (s.width - 1) s.fill
  let text := match s.flags.adjust with | .left => c :: pad | _ => pad ++ [c]
  { s with width := 0, out := s.out ++ text }

/-- `out << std::hex`. -/
def setHex (s : OStream) : OStream := { s with flags := { s.flags with base := .hex } }

/-- `out << std::setfill(c)`. -/
def setFill (s : OStream) (c : Char) : OStream := { s with fill := c }

/-- `out << std::setw(n)`. -/
def setWidth (s : OStream) (n : Nat) : OStream := { s with width := n }

/-- The body of the loop in `operator<<(ostream, universal_packet)` (src/universal_packet.cpp 60-64). -/
def putWord (s : OStream) (p : Packet) (w : Nat) : OStream :=
  let s := if w ≠ 0 then s.putChar ' ' else s
  (((s.setHex).setFill '0').setWidth 8).putUnsigned (p.word w)

/-- `operator<<(ostream, universal_packet)` (src/universal_packet.cpp 39-50, 54-66). The destructor of `iobase_restore_flags`
(lines 39-50) writes back the format flags, and nothing else. -/
def putPacket (s : OStream) (p : Packet) : OStream :=
  { (List.range p.size).foldl (fun s w => s.putWord p w) s with flags := s.flags }

end OStream

/-- `in >> std::hex >> target` for a stream with the given `skipws` flag (src/universal_packet.cpp 74, 80): as `readWord`,
but white space is skipped only if the flag is set. -/
def readWordF (skipws : Bool) (s : IStream) (target : Word) : IStream × Word :=
  if s.good then
    let cs := if skipws then s.rest.dropWhile isSpaceC else s.rest
    match cs with
    | [] => ({ rest := [], eof := true, fail := true }, if skipws then target else 0)
    | _ => readHex cs
  else ({ s with fail := true }, target)

/-- The loop in `operator>>` for a stream with the given `skipws` flag (src/universal_packet.cpp 78-83). -/
def readWordsF (skipws : Bool) (s : IStream) (p : Packet) (w : Nat) : Nat → IStream × Packet
  | 0 => (s, p)
  | k + 1 =>
    let (s', v) := readWordF skipws s (p.word w)
    let p' := p.setWord w v
    if s'.good then readWordsF skipws s' p' (w + 1) k else (s', p')

/-- `operator>>(istream, universal_packet)` for a stream with the given format flags (src/universal_packet.cpp 39-50, 71-87): the
stream, its flags afterwards (`in >> std::hex` sets the base, `iobase_restore_flags` writes back the flags) and the
packet. -/
def readPacketF (f : FmtFlags) (s : IStream) (p : Packet) : IStream × FmtFlags × Packet :=
  let hex := { f with base := .hex }
  let (s', v) := readWordF hex.skipws s p.w0
  let p' := { p with w0 := v }
  let (s'', p'') := if s'.good then readWordsF hex.skipws s' p' 1 (p'.size - 1) else (s', p')
  (s'', f, p'')

end Midi
