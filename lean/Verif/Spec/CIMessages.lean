import Verif.Spec.CI

/-!
# MIDI-CI messages: which sysex messages are complete messages of their kind

A small grammar of the messages, used by C55. It does not use the model: a message is described by the bytes it
consists of.
-/

namespace Midi.Spec

/-- A universal non real time sysex message of type 0x0D with one of the given subtypes: device id, type, subtype,
version, two MUIDs of four bytes each, and a content that may depend on the version. -/
def CIMessage (subtypes : List Byte) (content : Byte → List Byte → Prop) (s : Sysex) : Prop :=
  s.manufacturerID = 0x7E0000 ∧ ∃ dev sub version muids payload,
    s.data = [dev, 0x0D, sub, version] ++ muids ++ payload ∧ sub ∈ subtypes ∧ muids.length = 8 ∧
    content version payload

/-- At least `n` bytes. -/
def AtLeast (n : Nat) : Byte → List Byte → Prop := fun _ p => n ≤ p.length

/-- At least `n` bytes, and at least `m` in messages of version 2 and above. -/
def AtLeastV (n m : Nat) : Byte → List Byte → Prop := fun v p => n ≤ p.length ∧ (2 ≤ v.toNat → m ≤ p.length)

/-- `n` bytes, a number with `k` digits of 7 bit, and as many bytes as the number says; anything may follow. -/
def Counted (n k : Nat) : Byte → List Byte → Prop := fun _ p => ∃ fixed data rest,
  p = fixed ++ le7 k data.length ++ data ++ rest ∧ fixed.length = n ∧ data.length < 128 ^ k

/-- The two lists of profiles of a profile inquiry reply: each starts with the number of its profiles, each of which
takes five bytes. -/
def TwoProfileLists : Byte → List Byte → Prop := fun _ p => ∃ n enabled m disabled rest,
  p = le7 2 n ++ enabled ++ le7 2 m ++ disabled ++ rest ∧ n < 128 ^ 2 ∧ m < 128 ^ 2 ∧
  enabled.length = 5 * n ∧ disabled.length = 5 * m

/-- The content of property exchange data messages: request id, header with its size, number of chunks (0 when it is not
known), number of this chunk, and data with its size. This chunk is one of the chunks, only the first has a header, and
a message with data has a chunk number. -/
def PropertyData : Byte → List Byte → Prop := fun _ p => ∃ id header chunks this data rest,
  p = [id] ++ le7 2 header.length ++ header ++ le7 2 chunks ++ le7 2 this ++ le7 2 data.length ++ data ++ rest ∧
  header.length < 128 ^ 2 ∧ chunks < 128 ^ 2 ∧ this < 128 ^ 2 ∧ data.length < 128 ^ 2 ∧
  (chunks = 0 ∨ this ≤ chunks) ∧ (header = [] ∨ this ≤ 1) ∧ (data = [] ∨ 1 ≤ this)

/-- What the messages accepted by each view class must contain. The names are those of `views`. -/
def contents : List (String × List Byte × (Byte → List Byte → Prop)) :=
  [("discovery_inquiry_view", [0x70], AtLeastV 16 17),
   ("discovery_reply_view", [0x71], AtLeastV 16 18),
   ("endpoint_information_inquiry_view", [0x72], AtLeast 1),
   ("endpoint_information_reply_view", [0x73], Counted 1 2),
   ("ack_view", [0x7D], Counted 8 2),
   ("invalidate_muid_view", [0x7E], AtLeast 4),
   ("nak_view", [0x7F], fun v p => 2 ≤ v.toNat ∧ Counted 8 2 v p),
   ("profile_inquiry_view", [0x20], AtLeast 0),
   ("profile_inquiry_reply_view", [0x21], TwoProfileLists),
   ("profile_id_view", [0x22, 0x23, 0x24, 0x25, 0x26, 0x27], AtLeast 5),
   ("profile_destination_view", [0x22, 0x23, 0x24, 0x25], AtLeast 7),
   ("profile_details_inquiry_view", [0x28], AtLeast 6),
   ("profile_details_reply_view", [0x29], Counted 6 2),
   ("profile_specific_data_view", [0x2F], Counted 5 4),
   ("property_exchange_capabilities_view", [0x30, 0x31], AtLeastV 1 3),
   ("property_data_message_view", [0x34, 0x35, 0x36, 0x37, 0x38, 0x39, 0x3F], PropertyData),
   ("get_property_data_view", [0x34, 0x35], PropertyData),
   ("set_property_data_view", [0x36, 0x37], PropertyData),
   ("subscription_view", [0x38, 0x39], PropertyData),
   ("notify_view", [0x3F], PropertyData),
   ("process_inquiry_capabilities_reply_view", [0x41], AtLeast 1),
   ("midi_message_report_inquiry_view", [0x42], AtLeast 5),
   ("midi_message_report_reply_view", [0x43], AtLeast 4)]

end Midi.Spec
