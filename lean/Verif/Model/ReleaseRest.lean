import Verif.Model.Release
import Verif.Model.Jitter

/-!
# The library built without assertions: scaling, clock follower, lists of profiles, property data

Continues `Verif.Model.Release` with the remaining functions that contain assertions, other than the constructors of views: those
do nothing but assert.
-/

namespace Midi.Release

/-! ## types.h -/

/-- `upsample_x_to_ybit(v, x, y)` without its assertion (inc/midi/types.h 482-515). `x` and `y` are below 256. Shifts by less than 0
or more than 31 bits are undefined, and so is the subtraction in line 499 for `x = 32`. The loop (509-513) ends for `x = 1` as well,
where `repeat_value` is 0 from the beginning. -/
def upsampleXtoY (v : Word) (x y : Nat) : Except Fault Word := do
  let scaleBits := (256 + y - x) % 256
  if x = 0 ∨ 32 < x then .error .badShift
  else
    let xCenter := (1 : Word) <<< (x - 1)
    if 31 < scaleBits then .error .badShift
    else
      let result := v <<< scaleBits
      if v ≤ xCenter then
        return result
      else
        let repeatBits := x - 1
        if repeatBits = 31 then .error .signedOverflow
        else
          let repeatMask := ((1 : Word) <<< repeatBits) - 1
          let repeatValue := v &&& repeatMask
          let repeatValue :=
            if scaleBits > repeatBits then repeatValue <<< (scaleBits - repeatBits)
            else repeatValue >>> (repeatBits - scaleBits)
          return repeatLoop 32 repeatBits result repeatValue

/-! ## jitter_reduction_timestamps.cpp -/

/-- `set_security_offset(offset)` without its assertion (src/jitter_reduction_timestamps.cpp 58-62). -/
def setSecurityOffset (s : Jr.Follower) (offset : Int) : Jr.Follower := { s with securityOffset := offset }

/-- The effect of a call of the clock follower, with the time point returned by `schedule_message`. The other functions have no
assertions. -/
def follow (s : Jr.Follower) : Jr.Call → Except Fault (Jr.Follower × List Int)
  | .setOffset o => return (setSecurityOffset s o, [])
  | c => s.call c

/-- A sequence of calls of the clock follower, with the returned time points in order. -/
def followAll (s : Jr.Follower) : List Jr.Call → Except Fault (Jr.Follower × List Int)
  | [] => .ok (s, [])
  | c :: cs => do
    let (s, o) ← follow s c
    let (s, os) ← followAll s cs
    return (s, o ++ os)

/-! ## capability_inquiry.cpp -/

/-- `message::make_with_payload_size` (src/capability_inquiry.cpp 57-77). -/
def makeWithPayload (subtype : Byte) (source dest : Word) (deviceId : Byte) : Sysex :=
  addData ⟨universalNonRealtime, []⟩ (CI.headerBytes subtype source dest deviceId)

/-- The lambda `add_profile` of `make_profile_inquiry_reply` (src/capability_inquiry.cpp 144-150). -/
def addProfile (s : Sysex) (p : CI.ProfileId) : Sysex :=
  addUint7 (addUint7 (addUint7 (addUint7 (addUint7 s p.b1) p.b2) p.b3) p.b4) p.b5

/-- The loops of `make_profile_inquiry_reply` (src/capability_inquiry.cpp 153-156, 159-162): adds the `n` profiles at the given
pointer; running out of the array is a fault. -/
def addProfiles (s : Sysex) : Nat → List CI.ProfileId → Except Fault Sysex
  | 0, _ => .ok s
  | _ + 1, [] => .error .outOfBounds
  | n + 1, p :: ps => addProfiles (addProfile s p) n ps

/-- `make_profile_inquiry_reply` taking arrays with their sizes, without its assertions (src/capability_inquiry.cpp 126-165). -/
def makeProfileInquiryReplyN (source dest : Word) (enabled : List CI.ProfileId) (numEnabled : U16)
    (disabled : List CI.ProfileId) (numDisabled : U16) (deviceId : Byte) : Except Fault Sysex := do
  let s ← addProfiles (addUint14 (makeWithPayload 0x21 source dest deviceId) numEnabled) numEnabled.toNat enabled
  addProfiles (addUint14 s numDisabled) numDisabled.toNat disabled

/-- `make_profile_inquiry_reply` taking vectors (inc/midi/capability_inquiry.h 1454-1467): the sizes are converted to 16 bit. -/
def makeProfileInquiryReply (source dest : Word) (enabled disabled : List CI.ProfileId) (deviceId : Byte) : Except Fault Sysex :=
  makeProfileInquiryReplyN source dest enabled (BitVec.ofNat 16 enabled.length) disabled
    (BitVec.ofNat 16 disabled.length) deviceId

/-- `make_profiles(pos)` without its assertions (src/capability_inquiry.cpp 169-187). -/
def makeProfiles (s : Sysex) (pos : Nat) : Except Fault (List CI.ProfileId) := do
  let n ← makeUint14 s pos
  CI.ProfileInquiryReplyView.profilesFrom s n.toNat (pos + 2)

/-- `add_data` for a pointer that may be null (inc/midi/sysex.h 252-258): reading from a null pointer is a fault. -/
def addDataView (s : Sysex) (d : CI.DataView) : Except Fault Sysex :=
  if d.bytes.length ≠ 0 then
    if d.null then .error .outOfBounds else .ok (addData s d.bytes)
  else .ok s

/-- `property_exchange::make_property_data_message` without its assertions (src/capability_inquiry.cpp 248-285). -/
def makePropertyData (subtype : Byte) (source dest : Word) (header : CI.DataView) (numChunks thisChunk : U16)
    (chunk : CI.DataView) (requestId deviceId : Byte) : Except Fault Sysex := do
  let s := addUint7 (makeWithPayload subtype source dest deviceId) requestId
  let s ← addDataView (addUint14 s (BitVec.ofNat 16 header.bytes.length)) header
  let s := addUint14 (addUint14 (addUint14 s numChunks) thisChunk) (BitVec.ofNat 16 chunk.bytes.length)
  addDataView s chunk

end Midi.Release
