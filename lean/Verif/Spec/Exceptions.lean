import Verif.Model.Exceptions
import Verif.Spec.Reentrant

/-!
# Reference machines for exceptions

What there is. What a user would expect can be said without a machine: see the theorems of C68 and C70.
-/

namespace Midi.Spec

/-! ## Collectors -/

/-- The packets fed, in order. -/
def fedBy : List CollectorTry → List Packet
  | [] => []
  | .feed p _ :: os => p :: fedBy os
  | _ :: os => fedBy os

/-- The same calls, with nothing going wrong. -/
def untroubled : List CollectorTry → List CollectorOp
  | [] => []
  | .feed p _ :: os => .feed [p] :: untroubled os
  | .setMaxSize n _ :: os => .setMaxSize n :: untroubled os
  | .setCallback b :: os => .setCallback b :: untroubled os
  | .reset :: os => .reset :: untroubled os

/-- Nothing goes wrong. -/
def Calm : CollectorTry → Prop
  | .feed _ t => t = {}
  | .setMaxSize _ m => m = false
  | _ => True

/-- The same call, with all allocations succeeding. -/
def spared : CollectorTry → CollectorTry
  | .feed p t => .feed p { t with memory := false }
  | .setMaxSize n _ => .setMaxSize n false
  | o => o

/-- The limit is not changed. -/
def KeepsLimit : CollectorTry → Prop
  | .setMaxSize _ _ => False
  | _ => True

instance (o : CollectorTry) : Decidable (KeepsLimit o) := by cases o <;> unfold KeepsLimit <;> infer_instance

/-- Add the payload of a packet to what is held, and tell whether there is an exception. If more storage is needed and cannot be
had, nothing is added. If the callback throws, the message is still held, and it is still running if it took more than one
packet. -/
def Held7.tryAdd (s : Held7) (completes : Bool) (d : List Byte) (t : Trouble) : Held7 × List (List Byte) × Bool :=
  let need := (message7 s.held).data.length + d.length
  if t.memory ∧ s.storage < grown s.limit s.storage need then (s, [], true)
  else if t.callback ∧ completes ∧ s.callback ∧ room s.limit s.storage need then
    ({ s with storage := grown s.limit s.storage need, held := s.held ++ d }, [s.held ++ d], true)
  else ((s.add completes d).1, (s.add completes d).2, false)

/-- A packet with format code `f` (0 complete, 1 start, 2 continue, 3 end) and payload `d`. -/
def Held7.tryPacket (s : Held7) (f : Nat) (d : List Byte) (t : Trouble) : Held7 × List (List Byte) × Bool :=
  if f = 0 ∨ f = 1 then (if s.running then s.cleared else s).tryAdd (f = 0) d t
  else if s.running then s.tryAdd (f = 3) d t
  else (s.cleared, [], false)

/-- One call: packets that are not 7 bit sysex are ignored. A limit is set even if there is no memory for it. -/
def Held7.tryOne (s : Held7) : CollectorTry → Held7 × List (List Byte) × Bool
  | .feed p t => if IsSysex7 p then s.tryPacket (formatCode p) (payload7 p) t else (s, [], false)
  | .setMaxSize n memory =>
    if memory ∧ s.storage < n then ({ s with limit := n }, [], true)
    else ({ s with limit := n, storage := max s.storage n }, [], false)
  | .setCallback has => ({ s with callback := has }, [], false)
  | .reset => (s.cleared, [], false)

/-- A sequence of calls. -/
def Held7.tries (s : Held7) : List CollectorTry → Held7 × List (List Byte)
  | [] => (s, [])
  | o :: os =>
    let (s, out, _) := s.tryOne o
    let (s, out') := s.tries os
    (s, out ++ out')

/-- Add the payload of a packet to what is held. -/
def Held8.tryAdd (s : Held8) (completes : Bool) (d : List Byte) (t : Trouble) : Held8 × List (List Byte × Byte) × Bool :=
  let need := (message8 s.held).data.length + d.length
  if t.memory ∧ s.storage < grown s.limit s.storage need then (s, [], true)
  else if t.callback ∧ completes ∧ s.callback ∧ room s.limit s.storage need then
    ({ s with storage := grown s.limit s.storage need, held := s.held ++ d }, [(s.held ++ d, s.stream)], true)
  else ((s.add completes d).1, (s.add completes d).2, false)

/-- A packet with format code `f`, stream id `i` and payload `d`. -/
def Held8.tryPacket (s : Held8) (f : Nat) (i : Byte) (d : List Byte) (t : Trouble) : Held8 × List (List Byte × Byte) × Bool :=
  if f = 0 ∨ f = 1 then { (if s.running then s.cleared else s) with stream := i }.tryAdd (f = 0) d t
  else if s.running then if i = s.stream then s.tryAdd (f = 3) d t else (s, [], false)
  else (s.cleared, [], false)

/-- One call: packets that are not 8 bit sysex are ignored. -/
def Held8.tryOne (s : Held8) : CollectorTry → Held8 × List (List Byte × Byte) × Bool
  | .feed p t => if IsSysex8 p then s.tryPacket (formatCode p) (stream8 p) (payload8 p) t else (s, [], false)
  | .setMaxSize n memory =>
    if memory ∧ s.storage < n then ({ s with limit := n }, [], true)
    else ({ s with limit := n, storage := max s.storage n }, [], false)
  | .setCallback has => ({ s with callback := has }, [], false)
  | .reset => (s.cleared, [], false)

/-- A sequence of calls. -/
def Held8.tries (s : Held8) : List CollectorTry → Held8 × List (List Byte × Byte)
  | [] => (s, [])
  | o :: os =>
    let (s, out, _) := s.tryOne o
    let (s, out') := s.tries os
    (s, out ++ out')

/-! ## MIDI 1 byte stream parser -/

/-- The state after a byte for which memory is needed and cannot be had; nothing if no memory is needed. Memory is needed with a
sysex callback only: at sysex start, and for every byte behind the manufacturer id of a sysex message that is collected. Sysex
start has taken effect then, and the message is collected even if callbacks are disabled; any other byte is lost. -/
def memoryFails (c : Settings) (st : StreamState) (b : Byte) : Option StreamState :=
  if c.sysexCallback then
    if b = 0xF0 then some (.sysex c.group true [])
    else match st with
      | .sysex _ w d => if b < 0x80 ∧ w ∧ HasId d then some st else none
      | _ => none
  else none

/-- A byte that is not a real time byte, and whether there is an exception. If the callback throws, the state is the one in which
the callback was called. -/
def tryStep (c : Settings) (st : StreamState) (b : Byte) (t : Trouble) : InnerState × List Event × Bool :=
  match if t.memory then memoryFails c st b else none with
  | some st' => (.plain st', [], true)
  | none =>
    if t.callback ∧ (stepByte c st b).2 ≠ [] then (during c st b (stepByte c st b).1, (stepByte c st b).2, true)
    else (.plain (stepByte c st b).1, (stepByte c st b).2, false)

/-- A data byte or F7 behind an exception from the callback for a sysex packet. The data byte is added to the packet, behind the bytes
that were sent. When there are six, the packet is sent again, and the message goes on behind it; but if there were six before, they are
kept. The packet has space for fourteen, and there is no result for the next one. F7 sends the packet again, with all bytes, as
complete packet if it was a start packet and as end packet otherwise. -/
def trySent (c : Settings) (g : Byte) (f : Nat) (d : List Byte) (b : Byte) (t : Trouble) : Option (InnerState × List Event × Bool) :=
  if b = 0xF7 then
    let f' := if f = 1 then 0 else 3
    if c.enabled then some (if t.callback then .sent g f' d else .plain .idle, [.packet (sysexPacket g f' d)], t.callback)
    else some (.plain .idle, [], false)
  else if d.length = 14 then none
  else if d.length + 1 = 6 then
    let next := .plain (.sysex c.group true (d ++ [b]))
    if c.enabled then some (if t.callback then .sent g f (d ++ [b]) else next, [.packet (sysexPacket g f (d ++ [b]))], t.callback)
    else some (next, [], false)
  else some (.sent g f (d ++ [b]), [], false)

/-- A byte. There is no result if too many data bytes are fed behind an exception from the callback for a sysex packet. -/
def tryByte (c : Settings) (st : InnerState) (b : Byte) (t : Trouble) : Option (InnerState × List Event × Bool) :=
  if b ≥ 0xF8 then
    if c.enabled ∧ b ≠ 0xF9 ∧ b ≠ 0xFD then some (st, [.packet (shortMessage c.group b [])], t.callback)
    else some (st, [], false)
  else
    match st with
    | .plain st => some (tryStep c st b t)
    | .sent g f d => if b < 0x80 ∨ b = 0xF7 then trySent c g f d b t else some (tryStep c .idle b t)

/-- Several bytes in one call: an exception ends the call. -/
def tryBytes (c : Settings) (st : InnerState) : List (Byte × Trouble) → Option (InnerState × List Event × Bool)
  | [] => some (st, [], false)
  | (b, t) :: bs => do
    let (st, es, threw) ← tryByte c st b t
    if threw then return (st, es, true)
    else
      let (st, fs, threw) ← tryBytes c st bs
      return (st, es ++ fs, threw)

/-- One call. -/
def tryCall (c : Settings) (st : InnerState) : Parser.Try → Option (Settings × InnerState × List Event)
  | .feed bs => (tryBytes c st bs).map fun r => (c, r.1, r.2.1)
  | .setGroup g => some ({ c with group := g }, st, [])
  | .enable on => some ({ c with enabled := on }, st, [])
  | .reset => some (c, .plain .idle, [])

/-- A sequence of calls. -/
def tryCalls (c : Settings) (st : InnerState) : List Parser.Try → Option (Settings × InnerState × List Event)
  | [] => some (c, st, [])
  | o :: os => do
    let (c, st, es) ← tryCall c st o
    let (c, st, fs) ← tryCalls c st os
    return (c, st, es ++ fs)

/-- The first byte that is not a real time byte. -/
def firstByte : List (Byte × Trouble) → Option Byte
  | [] => none
  | (b, _) :: bs => if b ≥ 0xF8 then firstByte bs else some b

/-- The first call that matters is a reset, or one that feeds a status byte other than F7 (sysex end) first. Real time bytes and
settings do not matter. -/
def StartsAfresh : List Parser.Try → Prop
  | [] => True
  | .reset :: _ => True
  | .setGroup _ :: os => StartsAfresh os
  | .enable _ :: os => StartsAfresh os
  | .feed bs :: os => match firstByte bs with
    | none => StartsAfresh os
    | some b => 0x80 ≤ b ∧ b ≠ 0xF7

/-- Behind each call during which a callback may throw, the caller starts afresh. -/
def Careful : List Parser.Try → Prop
  | [] => True
  | .feed bs :: os => ((∃ x ∈ bs, x.2.callback = true) → StartsAfresh os) ∧ Careful os
  | _ :: os => Careful os

/-- Groups are set to values below 16 only. -/
def TryGroups (os : List Parser.Try) : Prop := ∀ g, Parser.Try.setGroup g ∈ os → g < 16

/-- The settings after some calls. -/
def settingsAfter (c : Settings) : List Parser.Try → Settings
  | [] => c
  | .setGroup g :: os => settingsAfter { c with group := g } os
  | .enable on :: os => settingsAfter { c with enabled := on } os
  | _ :: os => settingsAfter c os

/-- The same calls, with nothing going wrong. -/
def untroubledCalls : List Parser.Try → List Parser.Op
  | [] => []
  | .feed bs :: os => .feed (bs.map Prod.fst) :: untroubledCalls os
  | .setGroup g :: os => .setGroup g :: untroubledCalls os
  | .enable on :: os => .enable on :: untroubledCalls os
  | .reset :: os => .reset :: untroubledCalls os

end Midi.Spec
