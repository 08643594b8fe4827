import Verif.Model.CapabilityInquiry

/-!
# Devices with profiles, and someone who wants to know about them

Two applications, written with the views and factory functions of the library only: a device which has profiles, says which ones when it
is asked, turns them on and off when it is told to, and tells everybody about changes; and a client which asks, listens, and keeps what
it is told about any number of devices.
-/

namespace Midi.Spec
open CI

/-- The profiles of a scope (a channel, a group or a function block): those enabled and those disabled. -/
structure ProfileLists where
  enabled : List ProfileId
  disabled : List ProfileId
deriving DecidableEq, Repr

/-- Is the profile in the list, found with `operator==`. -/
def hasProfile (l : List ProfileId) (p : ProfileId) : Bool := l.any fun q => q.eqv p

/-- The list without the profile. -/
def withoutProfile (l : List ProfileId) (p : ProfileId) : List ProfileId := l.filter fun q => !q.eqv p

/-- A disabled profile is enabled. -/
def ProfileLists.enable (l : ProfileLists) (p : ProfileId) : ProfileLists :=
  if hasProfile l.disabled p then ⟨l.enabled ++ [p], withoutProfile l.disabled p⟩ else l

/-- An enabled profile is disabled. -/
def ProfileLists.disable (l : ProfileLists) (p : ProfileId) : ProfileLists :=
  if hasProfile l.enabled p then ⟨withoutProfile l.enabled p, l.disabled ++ [p]⟩ else l

/-- A new profile, at first disabled. -/
def ProfileLists.add (l : ProfileLists) (p : ProfileId) : ProfileLists :=
  if hasProfile l.enabled p || hasProfile l.disabled p then l else ⟨l.enabled, l.disabled ++ [p]⟩

/-- A profile is removed. -/
def ProfileLists.remove (l : ProfileLists) (p : ProfileId) : ProfileLists :=
  ⟨withoutProfile l.enabled p, withoutProfile l.disabled p⟩

/-- The MUID of messages to everybody. -/
def everybody : Word := 0x0FFFFFFF

/-- A device: its MUID, and its profiles in every scope. -/
structure ProfileDevice where
  muid : Word
  scopes : Byte → ProfileLists

/-- The device with other profiles in one scope. -/
def ProfileDevice.set (d : ProfileDevice) (scope : Byte) (l : ProfileLists) : ProfileDevice :=
  { d with scopes := fun s => if s = scope then l else d.scopes s }

/-- The device enables a profile it has, and tells everybody. -/
def ProfileDevice.enable (d : ProfileDevice) (p : ProfileId) (dest : ProfileDestination) : Except Fault (ProfileDevice × List Sysex) := do
  if hasProfile (d.scopes dest.scope).disabled p then
    let m ← makeProfileEnabled d.muid everybody p dest
    return (d.set dest.scope ((d.scopes dest.scope).enable p), [m])
  else return (d, [])

/-- The device disables a profile it has, and tells everybody. -/
def ProfileDevice.disable (d : ProfileDevice) (p : ProfileId) (dest : ProfileDestination) : Except Fault (ProfileDevice × List Sysex) := do
  if hasProfile (d.scopes dest.scope).enabled p then
    let m ← makeProfileDisabled d.muid everybody p dest
    return (d.set dest.scope ((d.scopes dest.scope).disable p), [m])
  else return (d, [])

/-- The device gets another profile, and tells everybody. It does not get more than 16383 in a scope. -/
def ProfileDevice.add (d : ProfileDevice) (p : ProfileId) (scope : Byte) : Except Fault (ProfileDevice × List Sysex) := do
  if (d.scopes scope).enabled.length + (d.scopes scope).disabled.length < 16383 then
    let m ← makeProfileAdded d.muid everybody p scope
    return (d.set scope ((d.scopes scope).add p), [m])
  else return (d, [])

/-- The device loses a profile, and tells everybody. -/
def ProfileDevice.remove (d : ProfileDevice) (p : ProfileId) (scope : Byte) : Except Fault (ProfileDevice × List Sysex) := do
  let m ← makeProfileRemoved d.muid everybody p scope
  return (d.set scope ((d.scopes scope).remove p), [m])

/-- The device receives a message, of any kind. It answers profile inquiries and obeys requests to turn profiles on and off. -/
def ProfileDevice.receive (d : ProfileDevice) (m : Sysex) : Except Fault (ProfileDevice × List Sysex) := do
  match ← asView View.validate m with
  | none => return (d, [])
  | some v =>
    if (← View.destinationMuid v) = d.muid then
      match ← asView ProfileInquiryView.validate m with
      | some i =>
        let scope ← UniversalSysex.View.deviceId i
        let source ← View.sourceMuid i
        let r ← makeProfileInquiryReply d.muid source (d.scopes scope).enabled (d.scopes scope).disabled scope
        return (d, [r])
      | none =>
        match ← asView ProfileDestinationView.validate m with
        | some r =>
          let subtype ← UniversalSysex.View.subtype r
          let p ← ProfileIdView.profile r
          let dest ← ProfileDestinationView.params r
          if subtype = 0x22 then d.enable p dest
          else if subtype = 0x23 then d.disable p dest
          else return (d, [])
        | none => return (d, [])
    else return (d, [])

/-- What happens at a device: it receives a message, or its user enables, disables, adds or removes a profile. -/
inductive ProfileEvent where
  | receive (m : Sysex)
  | enable (p : ProfileId) (dest : ProfileDestination)
  | disable (p : ProfileId) (dest : ProfileDestination)
  | add (p : ProfileId) (scope : Byte)
  | remove (p : ProfileId) (scope : Byte)

/-- What the device does, and the messages it sends. -/
def ProfileDevice.step (d : ProfileDevice) : ProfileEvent → Except Fault (ProfileDevice × List Sysex)
  | .receive m => d.receive m
  | .enable p dest => d.enable p dest
  | .disable p dest => d.disable p dest
  | .add p scope => d.add p scope
  | .remove p scope => d.remove p scope

/-- What a client knows about the profiles of devices: for every MUID and scope the profiles, or nothing. -/
abbrev KnownProfiles := Word → Byte → Option ProfileLists

/-- The client knows something else about one scope of one device. -/
def KnownProfiles.set (k : KnownProfiles) (muid : Word) (scope : Byte) (l : Option ProfileLists) : KnownProfiles :=
  fun u s => if u = muid ∧ s = scope then l else k u s

/-- A client with the MUID `me` hears a message, of any kind. -/
def KnownProfiles.hear (me : Word) (k : KnownProfiles) (m : Sysex) : Except Fault KnownProfiles := do
  match ← asView View.validate m with
  | none => return k
  | some v =>
    let dest ← View.destinationMuid v
    if dest = me ∨ dest = everybody then
      let source ← View.sourceMuid v
      let scope ← UniversalSysex.View.deviceId v
      match ← asView ProfileInquiryReplyView.validate m with
      | some r =>
        let enabled ← ProfileInquiryReplyView.enabled r
        let disabled ← ProfileInquiryReplyView.disabled r
        return k.set source scope (some ⟨enabled, disabled⟩)
      | none =>
        match ← asView ProfileIdView.validate m with
        | some n =>
          let subtype ← UniversalSysex.View.subtype n
          let p ← ProfileIdView.profile n
          if subtype = 0x24 then return k.set source scope ((k source scope).map fun l => l.enable p)
          else if subtype = 0x25 then return k.set source scope ((k source scope).map fun l => l.disable p)
          else if subtype = 0x26 then return k.set source scope ((k source scope).map fun l => l.add p)
          else if subtype = 0x27 then return k.set source scope ((k source scope).map fun l => l.remove p)
          else return k
        | none => return k
    else return k

/-- A client hears messages, one after the other. -/
def KnownProfiles.hearAll (me : Word) : KnownProfiles → List Sysex → Except Fault KnownProfiles
  | k, [] => .ok k
  | k, m :: ms => do
    let k ← KnownProfiles.hear me k m
    KnownProfiles.hearAll me k ms

/-- What happens in a network of devices: something at one of them, or a message from somebody else. -/
inductive NetEvent where
  | at (device : Nat) (e : ProfileEvent)
  | other (m : Sysex)

/-- An event in the network: the devices after it, and what the client knows then, who hears everything that is sent. -/
def netStep (me : Word) (ds : List ProfileDevice) (k : KnownProfiles) : NetEvent → Except Fault (List ProfileDevice × KnownProfiles)
  | .at i e =>
    match ds[i]? with
    | none => .ok (ds, k)
    | some d => do
      let (d', ms) ← d.step e
      return (ds.set i d', ← KnownProfiles.hearAll me k ms)
  | .other m => do return (ds, ← KnownProfiles.hear me k m)

/-- Events in the network, one after the other. -/
def netRun (me : Word) : List ProfileDevice → KnownProfiles → List NetEvent → Except Fault (List ProfileDevice × KnownProfiles)
  | ds, k, [] => .ok (ds, k)
  | ds, k, e :: es => do
    let (ds, k) ← netStep me ds k e
    netRun me ds k es

end Midi.Spec
