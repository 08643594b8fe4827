import Verif.Props.Transfer
import Verif.Spec.Said

/-!
# Specification: a device that keeps properties, and clients that set and get them (C107)

The device and the clients are programs that use the library: `understand` reads messages with the views (Spec/Said.lean), and the
messages are made by the factory functions. What they should do together is what a table does.
-/

namespace Midi.Spec
open CI

/-- What can be done with a table of properties, and what comes of it. -/
inductive Request where
  | get (resource : List Byte)
  | set (resource data : List Byte)
deriving DecidableEq, Repr

inductive Answer where
  | value (data : List Byte)
  | done
deriving DecidableEq, Repr

/-- A table of properties. -/
abbrev Table := List Byte → List Byte

def Table.perform (σ : Table) : Request → Table × Answer
  | .get r => (σ, .value (σ r))
  | .set r d => (fun x => if x = r then d else σ x, .done)

/-- Requests of any clients one after the other, with the answers. -/
def Table.performAll (σ : Table) : List (Word × Request) → Table × List (Word × Answer)
  | [] => (σ, [])
  | (who, r) :: rs => (((σ.perform r).1.performAll rs).1, (who, (σ.perform r).2) :: ((σ.perform r).1.performAll rs).2)

/-- The answers for one client. -/
def answersFor (who : Word) (l : List (Word × Answer)) : List Answer := (l.filter fun x => decide (x.1 = who)).map Prod.snd

/-! ## Clients -/

/-- What a client asks for; it cuts the data into chunks somehow. -/
inductive Ask where
  | get (resource : List Byte)
  | set (resource : List Byte) (chunks : List (List Byte))
deriving DecidableEq, Repr

def Ask.request : Ask → Request
  | .get r => .get r
  | .set r chunks => .set r chunks.flatten

/-- Names and data are 7 bit and not too long; a device with chunks of the given size can send the data back. -/
def Ask.Ok (size : Nat) : Ask → Prop
  | .get r => Seven r ∧ r.length ≤ 16368
  | .set r chunks => Seven r ∧ r.length ≤ 16368 ∧ chunks ≠ [] ∧ chunks.length ≤ 16383 ∧ (∀ c ∈ chunks, Seven c ∧ c.length ≤ 16383) ∧
      chunks.flatten.length ≤ 16383 * size

instance Ask.decidableOk (size : Nat) (a : Ask) : Decidable (a.Ok size) := by cases a <;> unfold Ask.Ok <;> infer_instance

/-- The messages with which a client asks. -/
def Ask.messages (who device : Word) (requestId : Byte) : Ask → Except Fault (List Sysex)
  | .get r => do return [← makeGetInquiry who device r requestId 0x7F]
  | .set r chunks => setMessages ⟨0x36, who, device, 0x7F, requestId, ascii "{\"resource\":\"" ++ r ++ ascii "\"}", chunks⟩ r

/-- The messages, the last one marked with what it completes. -/
def marked (who : Word) (r : Request) : List Sysex → List (Sysex × Option (Word × Request))
  | [] => []
  | [m] => [(m, some (who, r))]
  | m :: ms => (m, none) :: marked who r ms

/-- Everything a client sends: it asks one thing after the other (but does not wait for the answers), with any request ids. -/
def stream (who device : Word) (asks : List (Byte × Ask)) : Except Fault (List (Sysex × Option (Word × Request))) := do
  return (← asks.mapM fun a => do return marked who a.2.request (← a.2.messages who device a.1)).flatten

/-- A client that waits for answers: the data so far, and the answers. -/
structure Client where
  muid : Word
  data : List Byte := []
  answers : List Answer := []
deriving DecidableEq, Repr

def Client.receive (c : Client) (m : Sysex) : Except Fault Client := do
  match ← understand m with
  | some ⟨_, dest, _, .property .getReply _ _ numChunks thisChunk chunk⟩ =>
    if dest ≠ c.muid then return c
    else if thisChunk = numChunks then return { c with data := [], answers := c.answers ++ [.value (c.data ++ chunk)] }
    else return { c with data := c.data ++ chunk }
  | some ⟨_, dest, _, .property .setReply _ _ _ _ _⟩ =>
    if dest ≠ c.muid then return c else return { c with answers := c.answers ++ [.done] }
  | _ => return c

def Client.receiveAll (c : Client) (ms : List Sysex) : Except Fault Client := ms.foldlM Client.receive c

/-! ## The device -/

/-- The name of the resource in a header. -/
def resourceOf (header : List Byte) : Option (List Byte) :=
  let r := (header.drop 13).take (header.length - 15)
  if header = ascii "{\"resource\":\"" ++ r ++ ascii "\"}" then some r else none

/-- What has come of the set inquiries of one client: header and data, for every request id. -/
abbrev Unfinished := Byte → List Byte × List Byte

/-- A message of a client: collect its data, and see what it asks for if it is complete now. -/
def collect (p : Unfinished) (kind : PropertyKind) (requestId : Byte) (header : List Byte) (numChunks thisChunk : U16) (chunk : List Byte) :
    Unfinished × Option Request :=
  match kind with
  | .getInquiry => (p, (resourceOf header).map .get)
  | .setInquiry =>
    let got := if thisChunk = 1 then (header, chunk) else ((p requestId).1, (p requestId).2 ++ chunk)
    (fun x => if x = requestId then got else p x, if thisChunk = numChunks then (resourceOf got.1).map fun r => .set r got.2 else none)
  | _ => (p, none)

/-- Data cut into pieces of a given size. -/
def pieces (size : Nat) : Nat → List Byte → List (List Byte)
  | 0, d => [d]
  | n + 1, d => if d.length ≤ size then [d] else d.take size :: pieces size n (d.drop size)

/-- A device: its MUID, the size of the chunks it sends, the properties, and for every client what is incomplete. -/
structure Server where
  muid : Word
  size : Nat
  table : Table
  incomplete : Word → Unfinished

/-- The messages with which the device answers. -/
def Server.reply (s : Server) (who : Word) (requestId : Byte) : Answer → Except Fault (List Sysex)
  | .value d => replyMessages ⟨0x35, s.muid, who, 0x7F, requestId, ascii "{\"status\":200}", pieces s.size d.length d⟩
  | .done => do return [← makeSetReply s.muid who 200 requestId 0x7F]

/-- What the device does with a message. -/
def Server.receive (s : Server) (m : Sysex) : Except Fault (Server × List Sysex) := do
  match ← understand m with
  | some ⟨who, dest, _, .property kind requestId header numChunks thisChunk chunk⟩ =>
    if dest ≠ s.muid then return (s, [])
    else
      let (p, asked) := collect (s.incomplete who) kind requestId header numChunks thisChunk chunk
      let s := { s with incomplete := fun x => if x = who then p else s.incomplete x }
      match asked with
      | none => return (s, [])
      | some r =>
        let (table, answer) := s.table.perform r
        return ({ s with table := table }, ← s.reply who requestId answer)
  | _ => return (s, [])

/-- All messages, with everything the device sends. -/
def Server.receiveAll (s : Server) : List Sysex → Except Fault (Server × List Sysex)
  | [] => .ok (s, [])
  | m :: ms => do
    let (s, out) ← s.receive m
    let (s, more) ← s.receiveAll ms
    return (s, out ++ more)

/-- A message the device does not answer: it is no get or set inquiry for it. -/
def Ignored (device : Word) (m : Sysex) : Prop :=
  ∀ who dest dev kind requestId header numChunks thisChunk chunk,
    understand m = .ok (some ⟨who, dest, dev, .property kind requestId header numChunks thisChunk chunk⟩) →
    dest ≠ device ∨ (kind ≠ .getInquiry ∧ kind ≠ .setInquiry)

/-- The properties are 7 bit, and the device can send them. -/
def Table.Ok (size : Nat) (σ : Table) : Prop := ∀ r, Seven (σ r) ∧ (σ r).length ≤ 16383 * size

end Midi.Spec
