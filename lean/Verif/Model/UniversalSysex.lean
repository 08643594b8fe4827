import Verif.Model.Sysex

/-!
# Universal sysex messages

Models inc/midi/universal_sysex.h and src/universal_sysex.cpp. A view (`message_view` and the classes derived from it)
holds nothing but a reference to the sysex message it was made from, so view accessors are functions of that message;
the assertions of the view constructors are modelled by functions of their own.
-/

namespace Midi

/-- The built in `&&`: the right operand is evaluated only if the left one is true. -/
def andThen (a b : Except Fault Bool) : Except Fault Bool :=
  match a with
  | .ok true => b
  | .ok false => .ok false
  | .error e => .error e

@[inherit_doc] infixr:35 " &&! " => andThen

/-- The built in `||`: the right operand is evaluated only if the left one is false. -/
def orElse (a b : Except Fault Bool) : Except Fault Bool :=
  match a with
  | .ok true => .ok true
  | .ok false => b
  | .error e => .error e

@[inherit_doc] infixr:30 " ||! " => orElse

/-- A condition on data[i]. -/
def dataAt (s : Sysex) (i : Nat) (c : Byte → Bool) : Except Fault Bool := (index s.data i).map c

/-- The `size` bytes starting at a pointer `sx.data.data() + pos`: how a caller uses a pair of accessors returning a
pointer and a size, or two pointers. A range that is not inside the data is a fault. -/
def slice (s : Sysex) (pos size : Nat) : Except Fault (List Byte) :=
  if pos + size ≤ s.data.length then .ok ((s.data.drop pos).take size) else .error .outOfBounds

/-- `manufacturer::universal_realtime` (inc/midi/manufacturer.h 70). -/
def universalRealtime : Word := 0x7F0000

/-- `manufacturer::universal_non_realtime` (inc/midi/manufacturer.h 69). -/
def universalNonRealtime : Word := 0x7E0000

namespace UniversalSysex

/-- `is_universal_sysex_message(sx)` (inc/midi/universal_sysex.h 211-216). -/
def isUniversal (s : Sysex) : Bool :=
  (s.manufacturerID == universalRealtime || s.manufacturerID == universalNonRealtime) && decide (2 ≤ s.data.length)

/-- `universal_sysex_type_of(sx)` (inc/midi/universal_sysex.h 218-226). -/
def typeOf (s : Sysex) : Except Fault U16 :=
  if isUniversal s then do
    let d ← index s.data 1
    return ((s.manufacturerID >>> 8) ||| d.setWidth 32).setWidth 16
  else .ok 0

/-- `universal_sysex_subtype_of(sx)` (inc/midi/universal_sysex.h 228-236). -/
def subtypeOf (s : Sysex) : Except Fault Byte :=
  if isUniversal s && decide (2 < s.data.length) then index s.data 2 else .ok 0

/-- `universal_sysex_device_id_of(sx)` (inc/midi/universal_sysex.h 238-246). -/
def deviceIdOf (s : Sysex) : Except Fault Byte :=
  if isUniversal s then index s.data 0 else .ok 0xFF

/-- `message_view::message_view(s)` (inc/midi/universal_sysex.h 97-105): the assertions. -/
def makeView (s : Sysex) : Except Fault Sysex := do
  assert (s.manufacturerID == universalRealtime || s.manufacturerID == universalNonRealtime)
  assert (2 ≤ s.data.length)
  return s

/-- `as_universal_sysex_view(sx)` (inc/midi/universal_sysex.h 197-203). -/
def asView (s : Sysex) : Except Fault (Option Sysex) :=
  if isUniversal s then do return some (← makeView s) else .ok none

namespace View

/-- `message_view::device_id()` (inc/midi/universal_sysex.h 107). -/
def deviceId (s : Sysex) : Except Fault Byte := index s.data 0

/-- `message_view::type()` (inc/midi/universal_sysex.h 108). -/
def type (s : Sysex) : Except Fault U16 := do
  let d ← index s.data 1
  return ((s.manufacturerID >>> 8) ||| d.setWidth 32).setWidth 16

/-- `message_view::subtype()` (inc/midi/universal_sysex.h 109). -/
def subtype (s : Sysex) : Except Fault Byte := if 2 < s.data.length then index s.data 2 else .ok 0

/-- `message_view::data_size()` (inc/midi/universal_sysex.h 110). -/
def dataSize (s : Sysex) : Nat := s.data.length

end View

namespace Message

/-- `message::device_id()` (inc/midi/universal_sysex.h 284-287). -/
def deviceId (s : Sysex) : Except Fault Byte := if s.data.isEmpty then .ok 0xFF else index s.data 0

/-- `message::type()` (inc/midi/universal_sysex.h 289-292). -/
def type (s : Sysex) : Except Fault U16 :=
  if s.data.length < 2 then .ok 0 else do
    let d ← index s.data 1
    return ((s.manufacturerID >>> 8) ||| d.setWidth 32).setWidth 16

/-- `message::subtype()` (inc/midi/universal_sysex.h 294-297). -/
def subtype (s : Sysex) : Except Fault Byte := if 2 < s.data.length then index s.data 2 else .ok 0

/-- `message::set_device_id(i)` (inc/midi/universal_sysex.h 299-304). -/
def setDeviceId (s : Sysex) (i : Byte) : Except Fault Sysex := do
  assert (!s.data.isEmpty)
  assert (i < 128)
  return { s with data := s.data.set 0 (i &&& 0x7F) }

end Message

/-- `identity_request::identity_request(device_id)`, `make_identity_request(device_id)`
(inc/midi/universal_sysex.h 248-251, 308-311). -/
def makeIdentityRequest (deviceId : Byte) : Sysex := ⟨universalNonRealtime, [deviceId, 0x06, 0x01]⟩

/-- `is_identity_request(sx)` (inc/midi/universal_sysex.h 253-257). -/
def isIdentityRequest (s : Sysex) : Except Fault Bool :=
  (typeOf s).map (· == 0x7E06) &&! (subtypeOf s).map (· == 0x01)

/-- `identity_reply_view::validate(sx)` (inc/midi/universal_sysex.h 324-329). -/
def IdentityReplyView.validate (s : Sysex) : Except Fault Bool :=
  (typeOf s).map (· == 0x7E06) &&! (subtypeOf s).map (· == 0x02) &&!
    ((.ok (decide (s.data.length = 12)) &&! dataAt s 3 (· != 0)) ||! .ok (decide (s.data.length = 14)))

/-- `is_identity_reply(sx)` (inc/midi/universal_sysex.h 275-280). -/
def isIdentityReply (s : Sysex) : Except Fault Bool :=
  (typeOf s).map (· == 0x7E06) &&! (subtypeOf s).map (· == 0x02) &&!
    ((.ok (decide (s.data.length = 12)) &&! dataAt s 3 (· != 0)) ||! .ok (decide (s.data.length = 14)))

/-- `as_identity_reply_view(sx)` with `make_optional` (inc/midi/universal_sysex.h 121-128, 259-262). -/
def asIdentityReplyView (s : Sysex) : Except Fault (Option Sysex) := do
  if ← IdentityReplyView.validate s then return some (← makeView s) else return none

/-- `identity_reply_view::identity()` (inc/midi/universal_sysex.h 315-322). -/
def IdentityReplyView.identity (s : Sysex) : Except Fault DeviceIdentity := do
  let d3 ← index s.data 3
  if d3 ≠ 0 then
    let family ← s.makeUint14 4
    let model ← s.makeUint14 6
    let revision ← s.makeUint28 8
    return { manufacturer := d3.setWidth 32 <<< 16, family, model, revision }
  else
    let d4 ← index s.data 4
    let d5 ← index s.data 5
    let family ← s.makeUint14 6
    let model ← s.makeUint14 8
    let revision ← s.makeUint28 10
    return { manufacturer := d4.setWidth 32 <<< 8 ||| d5.setWidth 32, family, model, revision }

/-- `identity_reply::identity_reply(sysex_id, family, family_member, revision, device_id)` (src/universal_sysex.cpp
31-56). -/
def makeIdentityReply (sysexId : Word) (family member : U16) (revision : Word) (deviceId : Byte) :
    Except Fault Sysex := do
  let s : Sysex := ⟨universalNonRealtime, [deviceId, 0x06, 0x02]⟩
  let s : Sysex := if sysexId < 0x10000 then
      { s with data := s.data ++ [(0x00 : Byte), ((sysexId >>> 8) &&& 0x7F).setWidth 8, (sysexId &&& 0x7F).setWidth 8] }
    else { s with data := s.data ++ [((sysexId >>> 16) &&& 0x7F).setWidth 8] }
  let s ← s.addUint14 family
  let s ← s.addUint14 member
  s.addUint28 revision

/-- `identity_reply::identity_reply(identity)` (src/universal_sysex.cpp 60-63). -/
def makeIdentityReplyOf (i : DeviceIdentity) : Except Fault Sysex :=
  makeIdentityReply i.manufacturer i.family i.model i.revision 0x7F

end UniversalSysex

end Midi
