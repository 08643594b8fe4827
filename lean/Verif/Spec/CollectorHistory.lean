import Verif.Model.CollectorHistory
import Verif.Spec.Collector

/-!
# Reference machines for whole histories of calls on a collector

Like `Verif.Spec.CollectorLimit`, this is not what a user would want, but what there is. The machines keep the payload that is
held, and the room in the storage, because with a limit the storage decides which packets are accepted: room that is there is
used even if the limit is smaller.
-/

namespace Midi.Spec

/-- Whether `need` bytes of data are accepted. -/
def room (limit storage need : Nat) : Bool := limit = 0 ∨ need ≤ max storage limit

/-- The storage after asking for `need` bytes: it is doubled if they do not fit, to at least 128 bytes, but not beyond the
limit. -/
def grown (limit storage need : Nat) : Nat :=
  if need ≤ storage then storage
  else if limit = 0 then max 128 (2 * storage)
  else max storage (min limit (max 128 (2 * storage)))

/-- What a collector of 7 bit sysex remembers: whether a message is running, the payload held, the limit (0: no limit), the
storage, and whether there is a callback. -/
structure Held7 where
  running : Bool := false
  held : List Byte := []
  limit : Nat := 0
  storage : Nat := 0
  callback : Bool := true
deriving DecidableEq

/-- Forget what is held; storage of more than 16384 bytes is given back. -/
def Held7.cleared (s : Held7) : Held7 :=
  { s with running := false, held := [], storage := if s.storage > 16384 then 0 else s.storage }

/-- Add the payload of a packet to what is held. A packet that completes a message empties the storage. -/
def Held7.add (s : Held7) (completes : Bool) (d : List Byte) : Held7 × List (List Byte) :=
  let need := (message7 s.held).data.length + d.length
  let t := { s with storage := grown s.limit s.storage need }
  if room s.limit s.storage need then
    if completes then (t.cleared, if s.callback then [s.held ++ d] else [])
    else ({ t with running := true, held := s.held ++ d }, [])
  else ({ t with running := false }, [])

/-- A packet with format code `f` (0 complete, 1 start, 2 continue, 3 end) and payload `d`. -/
def Held7.packet (s : Held7) (f : Nat) (d : List Byte) : Held7 × List (List Byte) :=
  if f = 0 ∨ f = 1 then (if s.running then s.cleared else s).add (f = 0) d
  else if s.running then s.add (f = 3) d
  else (s.cleared, [])

/-- A sequence of packets. -/
def Held7.packets (s : Held7) : List (Nat × List Byte) → Held7 × List (List Byte)
  | [] => (s, [])
  | (f, d) :: r =>
    let (s, out) := s.packet f d
    let (s, out') := s.packets r
    (s, out ++ out')

/-- A history of calls: the final state, and the payloads of the messages delivered. -/
def Held7.history (s : Held7) : List CollectorOp → Held7 × List (List Byte)
  | [] => (s, [])
  | .feed ps :: ops =>
    let (s, out) := s.packets (items7 ps)
    let (s, out') := s.history ops
    (s, out ++ out')
  | .setMaxSize n :: ops => { s with limit := n, storage := max s.storage n }.history ops
  | .setCallback has :: ops => { s with callback := has }.history ops
  | .reset :: ops => s.cleared.history ops

/-- What a collector of 8 bit sysex remembers: in addition, the stream id of the last start packet. -/
structure Held8 where
  running : Bool := false
  stream : Byte := 0
  held : List Byte := []
  limit : Nat := 0
  storage : Nat := 0
  callback : Bool := true
deriving DecidableEq

/-- Forget what is held; storage of more than 16384 bytes is given back. -/
def Held8.cleared (s : Held8) : Held8 :=
  { s with running := false, stream := 0, held := [], storage := if s.storage > 16384 then 0 else s.storage }

/-- Add the payload of a packet to what is held. -/
def Held8.add (s : Held8) (completes : Bool) (d : List Byte) : Held8 × List (List Byte × Byte) :=
  let need := (message8 s.held).data.length + d.length
  let t := { s with storage := grown s.limit s.storage need }
  if room s.limit s.storage need then
    if completes then (t.cleared, if s.callback then [(s.held ++ d, s.stream)] else [])
    else ({ t with running := true, held := s.held ++ d }, [])
  else ({ t with running := false }, [])

/-- A packet with format code `f`, stream id `i` and payload `d`. Continue and end packets of another stream than the running
one are ignored. -/
def Held8.packet (s : Held8) (f : Nat) (i : Byte) (d : List Byte) : Held8 × List (List Byte × Byte) :=
  if f = 0 ∨ f = 1 then { (if s.running then s.cleared else s) with stream := i }.add (f = 0) d
  else if s.running then if i = s.stream then s.add (f = 3) d else (s, [])
  else (s.cleared, [])

/-- A sequence of packets. -/
def Held8.packets (s : Held8) : List Item8 → Held8 × List (List Byte × Byte)
  | [] => (s, [])
  | (f, i, d) :: r =>
    let (s, out) := s.packet f i d
    let (s, out') := s.packets r
    (s, out ++ out')

/-- A history of calls. -/
def Held8.history (s : Held8) : List CollectorOp → Held8 × List (List Byte × Byte)
  | [] => (s, [])
  | .feed ps :: ops =>
    let (s, out) := s.packets (items8 ps)
    let (s, out') := s.history ops
    (s, out ++ out')
  | .setMaxSize n :: ops => { s with limit := n, storage := max s.storage n }.history ops
  | .setCallback has :: ops => { s with callback := has }.history ops
  | .reset :: ops => s.cleared.history ops

end Midi.Spec
