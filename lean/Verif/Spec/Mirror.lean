import Verif.Spec.Store
import Verif.Spec.Json

/-!
# Specification: subscribed clients have a copy of a device's properties (C113)

The device and the clients are programs that use the library: `understand` reads messages with the views (Spec/Said.lean), headers are read
with a JSON parser (Spec/Json.lean), and the messages are made by the factory functions.
-/

namespace Midi.Spec
open CI

/-! ## What should be -/

/-- The properties of the device, and who has subscribed to what, by the ids of the subscriptions. -/
structure Truth where
  table : Table
  subscribed : Word → List Byte → Option (List Byte)

/-- What happens. -/
inductive Incident where
  /-- A property of the device changes. -/
  | change (resource data : List Byte)
  /-- A client subscribes to a property, with an id of its choice. -/
  | start (who : Word) (requestId : Byte) (resource id : List Byte)
  /-- A client ends a subscription. -/
  | stop (who : Word) (requestId : Byte) (resource id : List Byte)
  /-- The device receives another message. -/
  | other (m : Sysex)

def Truth.after (t : Truth) : Incident → Truth
  | .change r d => { t with table := fun x => if x = r then d else t.table x }
  | .start who _ r id => { t with subscribed := fun w i => if w = who ∧ i = id then some r else t.subscribed w i }
  | .stop who _ _ id => { t with subscribed := fun w i => if w = who ∧ i = id then none else t.subscribed w i }
  | .other _ => t

/-- After some incidents. -/
def Truth.afterAll (t : Truth) (es : List Incident) : Truth := es.foldl Truth.after t

/-! ## Headers -/

/-- Names that need no escapes, are not too long, and do not look like numbers. -/
def NameOk (n : List Byte) : Prop :=
  n ≠ [] ∧ (∀ b ∈ n, b < 0x80) ∧ n.all Json.plain = true ∧ ¬ (if n.head? = some 0x2D then n.tail else n).all Json.digit = true ∧ n.length ≤ 8000

instance (n : List Byte) : Decidable (NameOk n) := inferInstanceAs (Decidable (_ ∧ _))

/-- What the header of a subscription message says: command, id and resource. -/
def subscriptionOf (header : List Byte) : Option (List Byte × List Byte × List Byte) :=
  match Json.object header with
  | some [(k1, .str r), (k2, .str c), (k3, .str i)] =>
    if k1 = ascii "resource" ∧ k2 = ascii "command" ∧ k3 = ascii "subscribeId" then some (c, i, r) else none
  | _ => none

/-! ## The device -/

/-- A device: its MUID, the size of the chunks and the request id it uses, its properties, and the subscriptions: client, id and resource. -/
structure Publisher where
  muid : Word
  size : Nat
  requestId : Byte
  table : Table
  subscriptions : List (Word × List Byte × List Byte) := []

/-- The messages with which the device tells a client the value of a property. -/
def Publisher.tell (p : Publisher) (who : Word) (id r : List Byte) : Except Fault (List Sysex) :=
  let chunks := pieces p.size (p.table r).length (p.table r)
  let n := BitVec.ofNat 16 chunks.length
  chunks.zipIdx.mapM fun (chunk, i) =>
    if i = 0 then makeSubscriptionInquiryChunks p.muid who r (ascii "full") id n 1 ⟨false, chunk⟩ p.requestId 0x7F
    else makeSubscriptionInquiryChunk p.muid who n (BitVec.ofNat 16 (i + 1)) ⟨false, chunk⟩ p.requestId 0x7F

/-- A property changes, and all subscribers are told. -/
def Publisher.change (p : Publisher) (r d : List Byte) : Except Fault (Publisher × List Sysex) := do
  let p := { p with table := fun x => if x = r then d else p.table x }
  let out ← (p.subscriptions.filter fun s => decide (s.2.2 = r)).mapM fun s => p.tell s.1 s.2.1 s.2.2
  return (p, out.flatten)

/-- The subscriptions without one of them. -/
def without (l : List (Word × List Byte × List Byte)) (who : Word) (id : List Byte) : List (Word × List Byte × List Byte) :=
  l.filter fun s => !decide (s.1 = who ∧ s.2.1 = id)

/-- A client subscribes, or ends its subscription. A new subscriber is told the value at once. -/
def Publisher.receive (p : Publisher) (m : Sysex) : Except Fault (Publisher × List Sysex) := do
  match ← understand m with
  | some ⟨who, dest, _, .property .subscriptionInquiry requestId header _ _ _⟩ =>
    if dest ≠ p.muid then return (p, [])
    else
      match subscriptionOf header with
      | some (command, id, r) =>
        if command = ascii "start" then
          let p := { p with subscriptions := without p.subscriptions who id ++ [(who, id, r)] }
          return (p, (← makeSubscriptionReply p.muid who 200 requestId 0x7F) :: (← p.tell who id r))
        else if command = ascii "end" then
          return ({ p with subscriptions := without p.subscriptions who id }, [← makeSubscriptionReply p.muid who 200 requestId 0x7F])
        else return (p, [])
      | none => return (p, [])
  | _ => return (p, [])

/-- What the device does; the clients use the factory function to subscribe. -/
def Publisher.handle (p : Publisher) : Incident → Except Fault (Publisher × List Sysex)
  | .change r d => p.change r d
  | .start who requestId r id => do p.receive (← makeSubscriptionInquiry who p.muid r (ascii "start") id requestId 0x7F)
  | .stop who requestId r id => do p.receive (← makeSubscriptionInquiry who p.muid r (ascii "end") id requestId 0x7F)
  | .other m => p.receive m

/-- One after the other, with everything the device sends. -/
def Publisher.handleAll (p : Publisher) : List Incident → Except Fault (Publisher × List Sysex)
  | [] => .ok (p, [])
  | e :: es => do
    let (p, out) ← p.handle e
    let (p, more) ← p.handleAll es
    return (p, out ++ more)

/-- Names and data are such as can be sent; other messages are no subscription messages for the device. -/
def Incident.Ok (device : Word) (size : Nat) : Incident → Prop
  | .change _ d => Seven d ∧ d.length ≤ 16383 * size
  | .start who requestId r id => U28 who ∧ U7 requestId ∧ NameOk r ∧ NameOk id
  | .stop who requestId r id => U28 who ∧ U7 requestId ∧ NameOk r ∧ NameOk id
  | .other m => ∀ who dev requestId header n t chunk,
      understand m ≠ .ok (some ⟨who, device, dev, .property .subscriptionInquiry requestId header n t chunk⟩)

/-! ## Clients -/

/-- A client: its MUID, header and data of what is incomplete, by sender and request id, and its copies, by subscription. -/
structure Mirror where
  muid : Word
  incomplete : Word → Byte → List Byte × List Byte := fun _ _ => ([], [])
  copies : List Byte → Option (List Byte) := fun _ => none

/-- A complete message for the client: with the command "full" its data is the copy. -/
def Mirror.complete (c : Mirror) (header data : List Byte) : Mirror :=
  match subscriptionOf header with
  | some (command, id, _) => if command = ascii "full" then { c with copies := fun i => if i = id then some data else c.copies i } else c
  | none => c

def Mirror.receive (c : Mirror) (m : Sysex) : Except Fault Mirror := do
  match ← understand m with
  | some ⟨source, dest, _, .property .subscriptionInquiry requestId header numChunks thisChunk chunk⟩ =>
    if dest ≠ c.muid then return c
    else
      let got := if thisChunk = 1 then (header, chunk) else ((c.incomplete source requestId).1, (c.incomplete source requestId).2 ++ chunk)
      let c := { c with incomplete := fun s r => if s = source ∧ r = requestId then got else c.incomplete s r }
      if thisChunk = numChunks then return c.complete got.1 got.2 else return c
  | _ => return c

def Mirror.receiveAll (c : Mirror) (ms : List Sysex) : Except Fault Mirror := ms.foldlM Mirror.receive c

end Midi.Spec
