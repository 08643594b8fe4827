import Verif.Model.FlexData

/-!
# Texts of any length in flex data messages

Two applications, written with the factory and the view of the library only: a sender which splits texts (lyrics, titles, ...) into
flex data messages of 12 characters, and a reader which puts the texts together again, those of several senders at the same time.
-/

namespace Midi.Spec

/-- What a text belongs to: the group, the address (0 for a channel, 1 for a group) with its channel, and the kind of text. -/
structure TextKey where
  group : Byte
  address : Byte
  channel : Byte
  bank : Byte
  status : Byte
deriving DecidableEq, Repr

/-- The banks of texts: metadata (1) and performance texts (2). Bank 0 has tempo, key signature and others, which are not texts. -/
def isTextBank (bank : Byte) : Bool := bank == 1 || bank == 2

/-- What follows the first 12 characters of a long text. -/
def laterParts (text : List Byte) : List (Format × List Byte) :=
  if text.length ≤ 12 then [(.fin, text)] else (.cont, text.take 12) :: laterParts (text.drop 12)
termination_by text.length
decreasing_by rw [List.length_drop]; omega

/-- A text in parts of 12 characters, the last one may be shorter. -/
def textParts (text : List Byte) : List (Format × List Byte) :=
  if text.length ≤ 12 then [(.complete, text)] else (.start, text.take 12) :: laterParts (text.drop 12)

/-- Someone who sends texts, one after the other. -/
structure TextSender where
  group : Byte
  address : Address
  channel : Byte
  bank : Byte
  status : Byte
  texts : List (List Byte)

/-- What the texts of the sender belong to. -/
def TextSender.key (s : TextSender) : TextKey :=
  ⟨s.group, match s.address with | .channel => 0 | .group => 1, s.channel, s.bank, s.status⟩

/-- A sender the library supports: the group and the channel are below 16, the channel is 0 unless a channel is addressed, the bank is one
of texts, and the texts have no zeros. -/
def TextSender.Ok (s : TextSender) : Prop :=
  s.group < 16 ∧ s.channel < 16 ∧ (s.address = .channel ∨ s.channel = 0) ∧ isTextBank s.bank = true ∧ ∀ t ∈ s.texts, ∀ c ∈ t, c ≠ 0

instance (s : TextSender) : Decidable s.Ok := inferInstanceAs (Decidable (_ ∧ _))

/-- The packets of a text. -/
def TextSender.sendText (s : TextSender) (text : List Byte) : Except Fault (List Packet) :=
  (textParts text).mapM fun (format, part) => makeFlexText s.group format s.address s.channel s.bank s.status part

/-- The packets of all texts. -/
def TextSender.send (s : TextSender) : Except Fault (List Packet) := List.flatten <$> s.texts.mapM s.sendText

/-- A reader: the text that has begun, for everything a text may belong to. -/
abbrev TextReader := TextKey → Option (List Byte)

/-- A reader that has not read anything. -/
def TextReader.new : TextReader := fun _ => none

/-- The reader with another text begun for `k`. -/
def TextReader.set (r : TextReader) (k : TextKey) (t : Option (List Byte)) : TextReader := fun k' => if k' = k then t else r k'

/-- The reader reads one packet, of any kind. It returns the text which this packet completes. -/
def TextReader.read (r : TextReader) (p : Packet) : Except Fault (TextReader × List (TextKey × List Byte)) := do
  match ← asFlexData p with
  | none => return (r, [])
  | some v =>
    let k : TextKey := ⟨flexGroup v, flexAddressCode v, flexChannel v, flexStatusBank v, flexStatus v⟩
    if isTextBank k.bank then
      let part ← flexPayloadAsString v
      match flexFormat v with
      | .complete => return (r.set k none, [(k, part)])
      | .start => return (r.set k (some part), [])
      | .cont => return (r.set k ((r k).map fun t => t ++ part), [])
      | .fin => return (r.set k none, ((r k).map fun t => (k, t ++ part)).toList)
    else return (r, [])

/-- The reader reads packets, one after the other. -/
def TextReader.readAll : TextReader → List Packet → Except Fault (TextReader × List (TextKey × List Byte))
  | r, [] => .ok (r, [])
  | r, p :: ps => do
    let (r, l) ← r.read p
    let (r, m) ← TextReader.readAll r ps
    return (r, l ++ m)

/-- What a packet belongs to, if it has a part of a text. -/
def TextKey.ofPacket (p : Packet) : Option TextKey :=
  if (p.byteAt 0).toNat / 16 = 13 ∧ isTextBank (p.byteAt 2) = true then
    some ⟨p.byteAt 0 &&& 15, (p.byteAt 1 >>> 4) &&& 3, p.byteAt 1 &&& 15, p.byteAt 2, p.byteAt 3⟩
  else none

/-- The texts of one key. -/
def textsOf (k : TextKey) (l : List (TextKey × List Byte)) : List (List Byte) := (l.filter fun x => x.1 = k).map Prod.snd

end Midi.Spec
