import Verif.Spec.Said

/-!
# Devices that choose MUIDs

A network of stations which choose their MUIDs, written with the MIDI-CI factory functions and views of the library (through `understand`,
which reads messages with the views). Each station announces its MUID to all others with a discovery inquiry. Who hears that somebody else
uses their MUID declares it invalid and chooses another one.
-/

namespace Midi.Spec
open CI

/-- A station: what it tells about itself, and the MUIDs it has had, the present one first. -/
structure Station where
  identity : DeviceIdentity
  categories : Byte
  maxSize : Word
  muids : List Word
deriving DecidableEq, Repr

/-- The MUID it has now. -/
def Station.muid (s : Station) : Word := s.muids.headD 0

/-- The station takes a new MUID and announces it (`make_discovery_inquiry`). -/
def Station.renew (s : Station) (muid : Word) : Except Fault (Station × List Sysex) := do
  return ({ s with muids := muid :: s.muids }, [← makeDiscoveryInquiry muid s.identity s.categories s.maxSize 0])

/-- The station receives a message; `new` is the MUID it takes if it has to. When its own MUID is declared invalid (`invalidate_muid_view`)
it takes the new one. When somebody else announces its MUID (`discovery_inquiry_view`), it also tells everybody that this MUID is invalid
(`make_invalidate_muid_message`). Everything else does not concern its MUID. The second result is what it sends to all others. -/
def Station.receive (s : Station) (new : Word) (m : Sysex) : Except Fault (Station × List Sysex) := do
  match ← understand m with
  | some ⟨_, _, _, .invalidateMuid target⟩ => if target = s.muid then s.renew new else return (s, [])
  | some ⟨source, _, _, .discoveryInquiry _ _ _ _⟩
  | some ⟨source, _, _, .discoveryInquiryV1 _ _ _⟩ =>
    if source = s.muid then
      let invalid ← makeInvalidateMuid s.muid s.muid
      let (s, ms) ← s.renew new
      return (s, invalid :: ms)
    else return (s, [])
  | _ => return (s, [])

/-- The stations, and the messages on their way: from whom, to whom. -/
structure Network where
  stations : List Station := []
  flight : List (Nat × Nat × Sysex) := []

/-- What station `i` of `n` sends to all others. -/
def toOthers (n i : Nat) (ms : List Sysex) : List (Nat × Nat × Sysex) :=
  ((List.range n).filter (· ≠ i)).flatMap fun j => ms.map fun m => (i, j, m)

/-- What can happen. -/
inductive Happening where
  /-- A station joins the network, with this MUID, and announces it. -/
  | join (identity : DeviceIdentity) (categories : Byte) (maxSize : Word) (muid : Word)
  /-- One of the messages on their way arrives, the `k`-th in the order in which they were sent; `new` is the MUID which the receiver takes if
  it has to. Messages may overtake each other. -/
  | deliver (k : Nat) (new : Word)
  /-- Station `i` takes another MUID on its own account. -/
  | restart (i : Nat) (new : Word)
  /-- Any sysex message from elsewhere arrives at station `i`. -/
  | other (i : Nat) (m : Sysex) (new : Word)

/-- Station `i` is now `s`, and sends messages. -/
def Network.update (net : Network) (i : Nat) (s : Station) (ms : List Sysex) : Network :=
  { stations := net.stations.set i s, flight := net.flight ++ toOthers net.stations.length i ms }

/-- Station `i` receives a message. -/
def Network.receive (net : Network) (i : Nat) (new : Word) (m : Sysex) : Except Fault Network :=
  match net.stations[i]? with
  | some s => do
    let (s, ms) ← s.receive new m
    return net.update i s ms
  | none => return net

/-- One thing happens. -/
def Network.step (net : Network) : Happening → Except Fault Network
  | .join identity categories maxSize muid => do
    let (s, ms) ← Station.renew ⟨identity, categories, maxSize, []⟩ muid
    return { net with stations := net.stations ++ [s] }.update net.stations.length s ms
  | .deliver k new =>
    match net.flight[k]? with
    | some (_, j, m) => { net with flight := net.flight.eraseIdx k }.receive j new m
    | none => return net
  | .restart i new =>
    match net.stations[i]? with
    | some s => do
      let (s, ms) ← s.renew new
      return net.update i s ms
    | none => return net
  | .other i m new => net.receive i new m

/-- Things happen, one after the other. -/
def Network.run (net : Network) : List Happening → Except Fault Network
  | [] => .ok net
  | e :: es => do (← net.step e).run es

/-- MUIDs have 28 bits, and stations tell valid things about themselves. -/
def Happening.Ok : Happening → Prop
  | .join identity categories maxSize muid => ValidIdentity identity ∧ U7 categories ∧ U28 maxSize ∧ U28 muid
  | .deliver _ new => U28 new
  | .restart _ new => U28 new
  | .other _ _ new => U28 new

/-- The MUIDs with which stations join. -/
def joined (es : List Happening) : List Word := es.filterMap fun | .join _ _ _ u => some u | _ => none

/-- The MUIDs which were chosen for the case that one is needed. -/
def chosen (es : List Happening) : List Word := es.filterMap fun | .deliver _ u => some u | _ => none

/-- Stations join and messages arrive, and nothing else happens; and whenever a station chooses a MUID, it is one that nobody has had. -/
def Orderly (es : List Happening) : Prop :=
  (∀ e ∈ es, match e with | .join .. | .deliver .. => True | _ => False) ∧ (chosen es).Nodup ∧ ∀ u ∈ chosen es, u ∉ joined es

/-- Messages arrive, each of which is on its way then, and nothing else happens. -/
def Arriving : Network → List Happening → Prop
  | _, [] => True
  | net, e :: es => (match e with | .deliver k _ => k < net.flight.length | _ => False) ∧ ∀ net', net.step e = .ok net' → Arriving net' es

end Midi.Spec
