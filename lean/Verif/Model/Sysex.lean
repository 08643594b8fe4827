import Verif.Model.SysexPackets

/-!
# Sysex messages

Models inc/midi/sysex.h and src/sysex.cpp. The three variants of the data container (`std::vector` with the default, a
custom or a polymorphic allocator, inc/midi/sysex.h 57-93) are all a list of bytes here.
-/

namespace Midi

/-- `struct sysex` with its derived structs `sysex7` and `sysex8` (inc/midi/sysex.h 55-96, 177-200, 215-221). -/
structure Sysex where
  manufacturerID : Word := 0
  data : List Byte := []
deriving DecidableEq, Repr, Inhabited

/-- `v[i]` for a `std::vector<uint8_t>` or a pointer into one: reading at or behind the end is a fault. -/
def index (v : List Byte) (i : Nat) : Except Fault Byte :=
  if h : i < v.length then .ok v[i] else .error .outOfBounds

namespace Sysex

/-- `sysex::total_data_size()` (src/sysex.cpp 31-39). -/
def totalDataSize (s : Sysex) : Nat :=
  if s.manufacturerID ≠ 0 then s.data.length + (if s.manufacturerID &&& 0xFF0000 ≠ 0 then 1 else 3)
  else s.data.length

/-- `sysex::empty()` (src/sysex.cpp 43-46). -/
def empty (s : Sysex) : Bool := s.manufacturerID == 0 && s.data.isEmpty

/-- The loop of `sysex::is_7bit()` (src/sysex.cpp 50-57). -/
def is7bitLoop : List Byte → Bool
  | [] => true
  | b :: bs => if b &&& 0x80 ≠ 0 then false else is7bitLoop bs

/-- `sysex::is_7bit()` (src/sysex.cpp 50-57). -/
def is7bit (s : Sysex) : Bool := is7bitLoop s.data

/-- The loop of `sysex::is_8bit()` (src/sysex.cpp 61-68). -/
def is8bitLoop : List Byte → Bool
  | [] => false
  | b :: bs => if b &&& 0x80 ≠ 0 then true else is8bitLoop bs

/-- `sysex::is_8bit()` (src/sysex.cpp 61-68). -/
def is8bit (s : Sysex) : Bool := is8bitLoop s.data

/-- `sysex7::is_valid()` (inc/midi/sysex.h 182). -/
def isValid (s : Sysex) : Bool := (s.manufacturerID &&& 0xFF808080) == 0 && s.is7bit

/-- `operator==` (inc/midi/sysex.h 234-237, 184, 219). -/
def eqv (s o : Sysex) : Bool := s.manufacturerID == o.manufacturerID && s.data == o.data

/-- `operator!=` (inc/midi/sysex.h 239-242, 185, 220). -/
def neqv (s o : Sysex) : Bool := s.manufacturerID != o.manufacturerID || s.data != o.data

/-- `sysex::clear()` (src/sysex.cpp 72-79), without its effect on the capacity of the vector. -/
def clear (_ : Sysex) : Sysex := { manufacturerID := 0, data := [] }

/-- `sysex7::add_uint7(value)` (inc/midi/sysex.h 244-250). -/
def addUint7 (s : Sysex) (v : Byte) : Except Fault Sysex := do
  assert (v ≤ 127)
  return { s with data := s.data ++ [v &&& 0x7F] }

/-- `sysex7::add_data(d, data_size)` (inc/midi/sysex.h 252-258); `d` is the list of the `data_size` bytes pointed to. A
null pointer is not modelled: callers that could pass one do so with size 0, which fails the second assertion. -/
def addData (s : Sysex) (d : List Byte) : Except Fault Sysex := do
  assert (d.length ≠ 0)
  return { s with data := s.data ++ d }

/-- `sysex7::add_uint14(value)` (inc/midi/sysex.h 260-266). -/
def addUint14 (s : Sysex) (v : U16) : Except Fault Sysex := do
  assert (v ≤ 16383)
  return { s with data := s.data ++ [(v &&& 0x7F).setWidth 8, ((v >>> 7) &&& 0x7F).setWidth 8] }

/-- `sysex7::make_uint14(data_pos)` (inc/midi/sysex.h 268-272). -/
def makeUint14 (s : Sysex) (pos : Nat) : Except Fault U16 := do
  assert (pos + 1 < s.data.length)
  let d0 ← index s.data pos
  let d1 ← index s.data (pos + 1)
  return d0.setWidth 16 ||| (d1.setWidth 16 <<< 7)

/-- `sysex7::add_uint28(value)` (inc/midi/sysex.h 274-283). -/
def addUint28 (s : Sysex) (v : Word) : Except Fault Sysex := do
  assert (v ≤ 268435455)
  return { s with data := s.data ++ [(v &&& 0x7F).setWidth 8, ((v >>> 7) &&& 0x7F).setWidth 8,
    ((v >>> 14) &&& 0x7F).setWidth 8, ((v >>> 21) &&& 0x7F).setWidth 8] }

/-- `sysex7::make_uint28(data_pos)` (inc/midi/sysex.h 285-289). -/
def makeUint28 (s : Sysex) (pos : Nat) : Except Fault Word := do
  assert (pos + 3 < s.data.length)
  let d0 ← index s.data pos
  let d1 ← index s.data (pos + 1)
  let d2 ← index s.data (pos + 2)
  let d3 ← index s.data (pos + 3)
  return d0.setWidth 32 ||| (d1.setWidth 32 <<< 7) ||| (d2.setWidth 32 <<< 14) ||| (d3.setWidth 32 <<< 21)

/-- `sysex7::add_uint32(value)` (inc/midi/sysex.h 291-299). -/
def addUint32 (s : Sysex) (v : Word) : Sysex :=
  { s with data := s.data ++ [(v &&& 0x7F).setWidth 8, ((v >>> 7) &&& 0x7F).setWidth 8,
    ((v >>> 14) &&& 0x7F).setWidth 8, ((v >>> 21) &&& 0x7F).setWidth 8, ((v >>> 28) &&& 0x0F).setWidth 8] }

/-- `sysex7::make_uint32(data_pos)` (inc/midi/sysex.h 301-305). The last shift, `(d & 0x0F) << 28` on `int`, is below
`2^32` and thus converts to the same bits. -/
def makeUint32 (s : Sysex) (pos : Nat) : Except Fault Word := do
  assert (pos + 4 < s.data.length)
  let d0 ← index s.data pos
  let d1 ← index s.data (pos + 1)
  let d2 ← index s.data (pos + 2)
  let d3 ← index s.data (pos + 3)
  let d4 ← index s.data (pos + 4)
  return d0.setWidth 32 ||| (d1.setWidth 32 <<< 7) ||| (d2.setWidth 32 <<< 14) ||| (d3.setWidth 32 <<< 21) |||
    ((d4 &&& 0x0F).setWidth 32 <<< 28)

end Sysex

/-- `struct device_identity` (inc/midi/types.h 243-249). -/
structure DeviceIdentity where
  manufacturer : Word
  family : U16
  model : U16
  revision : Word
deriving DecidableEq, Repr, Inhabited

namespace Sysex

/-- `sysex7::add_device_identity(identity)` (src/sysex.cpp 83-97). -/
def addDeviceIdentity (s : Sysex) (i : DeviceIdentity) : Except Fault Sysex := do
  assert ((i.manufacturer &&& 0xFF808080) == 0)
  assert ((i.family &&& 0xC000) == 0)
  assert ((i.model &&& 0xC000) == 0)
  assert ((i.revision &&& 0xF0000000) == 0)
  let s := { s with data := s.data ++ [((i.manufacturer >>> 16) &&& 0x7F).setWidth 8] }
  let s := { s with data := s.data ++ [((i.manufacturer >>> 8) &&& 0x7F).setWidth 8] }
  let s := { s with data := s.data ++ [(i.manufacturer &&& 0x7F).setWidth 8] }
  let s ← s.addUint14 i.family
  let s ← s.addUint14 i.model
  s.addUint28 i.revision

/-- `sysex7::make_device_identity(data_pos)` (src/sysex.cpp 101-113). -/
def makeDeviceIdentity (s : Sysex) (pos : Nat) : Except Fault DeviceIdentity := do
  assert (pos + 10 < s.data.length)
  let d0 ← index s.data pos
  let d1 ← index s.data (pos + 1)
  let d2 ← index s.data (pos + 2)
  let family ← s.makeUint14 (pos + 3)
  let model ← s.makeUint14 (pos + 5)
  let revision ← s.makeUint28 (pos + 7)
  return { manufacturer := d0.setWidth 32 <<< 16 ||| d1.setWidth 32 <<< 8 ||| d2.setWidth 32, family, model, revision }

end Sysex

/-! ## Sending sysex messages as packets -/

/-- The loop over the data bytes in `send_sysex7` (inc/midi/sysex.h 327-340): `p` is the packet being filled, `left` the
counter `dataBytesLeft`. Returns the packets passed to `sender` and the final value of `p`. -/
def sendSysex7Loop (group : Byte) (p : Packet) (left : Nat) : List Byte → Except Fault (List Packet × Packet)
  | [] => .ok ([], p)
  | b :: bs => do
    let p ← sysex7AddPayloadByte p b
    let left := left - 1
    if sysex7PayloadSize p = 6 then
      let q ← makeSysex7 (if left ≤ 6 then .fin else .cont) group
      let (out, r) ← sendSysex7Loop group q left bs
      return (p :: out, r)
    else sendSysex7Loop group p left bs

/-- `send_sysex7(sysex, group, sender)` (inc/midi/sysex.h 309-346): the packets passed to `sender`, in order. -/
def sendSysex7 (s : Sysex) (group : Byte) : Except Fault (List Packet) := do
  let p ← makeSysex7 (if s.totalDataSize ≤ 6 then .complete else .start) group
  let p ← sysex7AddPayloadByte p (((s.manufacturerID >>> 16) &&& 0x7F).setWidth 8)
  let p ← (if s.manufacturerID &&& 0x00FFFF ≠ 0 then do
      let p ← sysex7AddPayloadByte p (((s.manufacturerID >>> 8) &&& 0x7F).setWidth 8)
      sysex7AddPayloadByte p ((s.manufacturerID &&& 0x7F).setWidth 8)
    else .ok p)
  let (out, p) ← sendSysex7Loop group p s.data.length s.data
  return if sysex7PayloadSize p ≠ 0 then out ++ [p] else out

/-- `as_sysex7_packets(sysex, group)` (inc/midi/sysex.h 350-358): collects the packets in a vector. -/
def asSysex7Packets (s : Sysex) (group : Byte) : Except Fault (List Packet) := sendSysex7 s group

/-- The loop over the data bytes in `send_sysex8` (inc/midi/sysex.h 385-397). -/
def sendSysex8Loop (stream group : Byte) (p : Packet) (left : Nat) :
    List Byte → Except Fault (List Packet × Packet)
  | [] => .ok ([], p)
  | b :: bs => do
    let p ← sysex8AddPayloadByte p b
    let left := left - 1
    if sysex8PayloadSize p = 13 then
      let q := makeSysex8 (if left ≤ 13 then .fin else .cont) stream group
      let (out, r) ← sendSysex8Loop stream group q left bs
      return (p :: out, r)
    else sendSysex8Loop stream group p left bs

/-- `send_sysex8(sysex, stream_id, group, sender)` (inc/midi/sysex.h 362-403): the packets passed to `sender`. -/
def sendSysex8 (s : Sysex) (stream group : Byte) : Except Fault (List Packet) := do
  let p := makeSysex8 (if s.totalDataSize ≤ 13 then .complete else .start) stream group
  let p ← (if s.manufacturerID &&& 0x00FFFF ≠ 0 then do
      let p ← sysex8AddPayloadByte p ((0x80 : Byte) + ((s.manufacturerID >>> 8) &&& 0x7F).setWidth 8)
      sysex8AddPayloadByte p ((s.manufacturerID &&& 0x7F).setWidth 8)
    else do
      let p ← sysex8AddPayloadByte p 0
      sysex8AddPayloadByte p (((s.manufacturerID >>> 16) &&& 0x7F).setWidth 8))
  let (out, p) ← sendSysex8Loop stream group p s.data.length s.data
  return if sysex8PayloadSize p ≠ 0 then out ++ [p] else out

/-- `as_sysex8_packets(sysex, stream_id, group)` (inc/midi/sysex.h 405-413): collects the packets in a vector. -/
def asSysex8Packets (s : Sysex) (stream group : Byte) : Except Fault (List Packet) := sendSysex8 s stream group

end Midi
