import Verif.Model.Reentrant
import Verif.Spec.ByteStream
import Verif.Spec.CollectorHistory

/-!
# Reference machines for callbacks that use the object that calls them

Like `Verif.Spec.CollectorHistory`, this is what there is. What a user would expect is given first: the calls made by a callback
have the effect they have when they are made right after the call that caused the callback.
-/

namespace Midi.Spec

/-! ## What a user would expect -/

mutual
/-- A call, followed by the calls the callback would make, each of them again followed by those the callback would make. The
calls of the callback take place if there is an event. -/
def _root_.Midi.Parser.after (p : Parser) : Parser.Call → Except Fault (Parser × List Event)
  | .feed b inside => do
    let (p, es) ← p.feed b
    if es = [] then return (p, es)
    else
      let (p, fs) ← Parser.afterAll p inside
      return (p, es ++ fs)
  | .setGroup g => .ok (p.setGroup g, [])
  | .enable on => .ok (p.enableCallbacks on, [])
  | .reset => .ok (p.reset, [])

/-- A sequence of calls. -/
def _root_.Midi.Parser.afterAll (p : Parser) : List Parser.Call → Except Fault (Parser × List Event)
  | [] => .ok (p, [])
  | c :: cs => do
    let (p, es) ← Parser.after p c
    let (p, fs) ← Parser.afterAll p cs
    return (p, es ++ fs)
end

mutual
/-- The same for a collector. -/
def _root_.Midi.Collector7.after (c : Collector7) : CollectorCall → Except Fault (Collector7 × List Sysex)
  | .feed p inside => do
    let (c, out) ← c.feed p
    if out = [] then return (c, out)
    else
      let (c, out') ← Collector7.afterAll c inside
      return (c, out ++ out')
  | .setMaxSize n => .ok (c.setMaxSize n, [])
  | .reset => .ok (c.reset, [])

/-- A sequence of calls. -/
def _root_.Midi.Collector7.afterAll (c : Collector7) : List CollectorCall → Except Fault (Collector7 × List Sysex)
  | [] => .ok (c, [])
  | o :: os => do
    let (c, out) ← Collector7.after c o
    let (c, out') ← Collector7.afterAll c os
    return (c, out ++ out')
end

mutual
/-- The same for a collector of 8 bit sysex. -/
def _root_.Midi.Collector8.after (c : Collector8) : CollectorCall → Except Fault (Collector8 × List (Sysex × Byte))
  | .feed p inside => do
    let (c, out) ← c.feed p
    if out = [] then return (c, out)
    else
      let (c, out') ← Collector8.afterAll c inside
      return (c, out ++ out')
  | .setMaxSize n => .ok (c.setMaxSize n, [])
  | .reset => .ok (c.reset, [])

/-- A sequence of calls. -/
def _root_.Midi.Collector8.afterAll (c : Collector8) : List CollectorCall → Except Fault (Collector8 × List (Sysex × Byte))
  | [] => .ok (c, [])
  | o :: os => do
    let (c, out) ← Collector8.after c o
    let (c, out') ← Collector8.afterAll c os
    return (c, out ++ out')
end

/-! ## Collectors -/

mutual
/-- The packets fed to a collector by a call and by the callbacks, in the order in which they are fed if every one of them
causes a callback. -/
def packetsFed : CollectorCall → List Packet
  | .feed p inside => p :: packetsFedAll inside
  | .setMaxSize _ => []
  | .reset => []

/-- The same for a sequence of calls. -/
def packetsFedAll : List CollectorCall → List Packet
  | [] => []
  | o :: os => packetsFed o ++ packetsFedAll os
end

/-- The callback does nothing but reset the collector. -/
def OnlyResets : CollectorCall → Prop
  | .feed _ inside => ∀ o ∈ inside, o = .reset
  | _ => True

/-- Add the payload of a packet to what is held. While the callback runs, the message is still held, and it is still running if
it took more than one packet. Afterwards everything is forgotten. -/
def Held7.addR (s : Held7) (completes : Bool) (d : List Byte) (react : Held7 → Held7 × List (List Byte)) :
    Held7 × List (List Byte) :=
  let need := (message7 s.held).data.length + d.length
  let t := { s with storage := grown s.limit s.storage need }
  if room s.limit s.storage need then
    if completes then
      if s.callback then
        let (u, out) := react { t with held := s.held ++ d }
        (u.cleared, (s.held ++ d) :: out)
      else (t.cleared, [])
    else ({ t with running := true, held := s.held ++ d }, [])
  else ({ t with running := false }, [])

/-- A packet with format code `f` (0 complete, 1 start, 2 continue, 3 end) and payload `d`. -/
def Held7.packetR (s : Held7) (f : Nat) (d : List Byte) (react : Held7 → Held7 × List (List Byte)) :
    Held7 × List (List Byte) :=
  if f = 0 ∨ f = 1 then (if s.running then s.cleared else s).addR (f = 0) d react
  else if s.running then s.addR (f = 3) d react
  else (s.cleared, [])

mutual
/-- One call. Packets that are not 7 bit sysex are ignored. -/
def Held7.call (s : Held7) : CollectorCall → Held7 × List (List Byte)
  | .feed p inside =>
    if IsSysex7 p then s.packetR (formatCode p) (payload7 p) (fun s => Held7.calls s inside) else (s, [])
  | .setMaxSize n => ({ s with limit := n, storage := max s.storage n }, [])
  | .reset => (s.cleared, [])

/-- A sequence of calls. -/
def Held7.calls (s : Held7) : List CollectorCall → Held7 × List (List Byte)
  | [] => (s, [])
  | o :: os =>
    let (s, out) := s.call o
    let (s, out') := Held7.calls s os
    (s, out ++ out')
end

/-- Add the payload of a packet to what is held. -/
def Held8.addR (s : Held8) (completes : Bool) (d : List Byte) (react : Held8 → Held8 × List (List Byte × Byte)) :
    Held8 × List (List Byte × Byte) :=
  let need := (message8 s.held).data.length + d.length
  let t := { s with storage := grown s.limit s.storage need }
  if room s.limit s.storage need then
    if completes then
      if s.callback then
        let (u, out) := react { t with held := s.held ++ d }
        (u.cleared, (s.held ++ d, s.stream) :: out)
      else (t.cleared, [])
    else ({ t with running := true, held := s.held ++ d }, [])
  else ({ t with running := false }, [])

/-- A packet with format code `f`, stream id `i` and payload `d`. -/
def Held8.packetR (s : Held8) (f : Nat) (i : Byte) (d : List Byte) (react : Held8 → Held8 × List (List Byte × Byte)) :
    Held8 × List (List Byte × Byte) :=
  if f = 0 ∨ f = 1 then { (if s.running then s.cleared else s) with stream := i }.addR (f = 0) d react
  else if s.running then if i = s.stream then s.addR (f = 3) d react else (s, [])
  else (s.cleared, [])

mutual
/-- One call. Packets that are not 8 bit sysex are ignored. -/
def Held8.call (s : Held8) : CollectorCall → Held8 × List (List Byte × Byte)
  | .feed p inside =>
    if IsSysex8 p then s.packetR (formatCode p) (stream8 p) (payload8 p) (fun s => Held8.calls s inside) else (s, [])
  | .setMaxSize n => ({ s with limit := n, storage := max s.storage n }, [])
  | .reset => (s.cleared, [])

/-- A sequence of calls. -/
def Held8.calls (s : Held8) : List CollectorCall → Held8 × List (List Byte × Byte)
  | [] => (s, [])
  | o :: os =>
    let (s, out) := s.call o
    let (s, out') := Held8.calls s os
    (s, out ++ out')
end

/-! ## MIDI 1 byte stream parser -/

/-- What the receiver of a byte stream remembers, while its callbacks may be running. -/
inductive InnerState where
  | plain (st : StreamState)
  /-- The callback was called for a packet with (a part of) a sysex message, with this group and format, and has not returned; `data`
  is the payload of the packet, and the data bytes fed since. -/
  | sent (group : Byte) (format : Nat) (data : List Byte)
deriving DecidableEq, Repr

/-- What is left of sysex data when the collected message is thrown away in the middle of it: the bytes of the manufacturer id
that were read count as zero, anything behind the id is lost. -/
def forgotten (d : List Byte) : List Byte :=
  List.replicate (if d = [] then 0 else if d.head? = some 0 then min 3 d.length else 1) 0

/-- The state in which the callback is called for the packet caused by a data byte or F7 within sysex. -/
def sending (g : Byte) (d : List Byte) (b : Byte) : InnerState :=
  if b < 0x80 then .sent g (if d.length < 6 then 1 else 2) ((d ++ [b]).drop (d.length + 1 - 6))
  else if d.length < 6 then .sent g 0 d
  else .sent g 3 (d.drop (d.length / 6 * 6))

/-- The state in which the callback for the event caused by a byte is called, where `next` is the state without callback. -/
def during (c : Settings) (st : StreamState) (b : Byte) (next : StreamState) : InnerState :=
  match st with
  | .sysex g _ d => if c.sysexCallback = false ∧ (b < 0x80 ∨ b = 0xF7) then sending g d b else .plain next
  | _ => .plain next

/-- What is left if the sysex message being collected is thrown away. -/
def forgetSysex : InnerState → InnerState
  | .plain (.sysex g w d) => .plain (.sysex g w (forgotten d))
  | st => st

/-- What is left if a system common message that lacks data is thrown away. -/
def dropCommon : InnerState → InnerState
  | .plain (.message g s d) => if s < 0xF0 then .plain (.message g s d) else .plain .idle
  | st => st

/-- The state when the callback has returned, where `next` is the state without callback, and `c'`, `st'` are settings and state
left by the callback.

* Behind a tune request (F6) and behind the end of sysex in packets, whatever the callback began is dropped. Within sysex in
  packets the message goes on, even if the callback reset the receiver; the group may have changed.
* Behind sysex in callback mode the collected data is dropped.
* Otherwise a system common message that the callback began is dropped. -/
def resumed (c : Settings) (st : StreamState) (b : Byte) (next : StreamState) (c' : Settings) (st' : InnerState) : InnerState :=
  if b = 0xF6 then .plain .idle
  else
    match st with
    | .sysex .. =>
      if c.sysexCallback then forgetSysex st'
      else match next with
        | .sysex _ w d => .plain (.sysex c'.group w d)
        | _ => .plain next
    | _ => dropCommon st'

/-- A byte that is not a real time byte; `react` is what the callback does. -/
def innerStep (c : Settings) (st : StreamState) (b : Byte)
    (react : Settings → InnerState → Option (Settings × InnerState × List Event)) :
    Option (Settings × InnerState × List Event) :=
  let next := (byteEvents c st b).1
  match (stepByte c st b).2 with
  | [] => some (c, .plain next, [])
  | e :: _ => do
    let (c', st', es) ← react c (during c st b next)
    return (c', resumed c st b next c' st', e :: es)

/-- A data byte or F7 that is fed while the callback for a sysex packet is running; `react` is what the callback does if it is called
again. Data bytes are added to the packet. When there are six of them the packet is sent again, and the message goes on behind it.
If there were six before, they are kept; the packet has space for fourteen, and there is no result for the next one. F7 sends the
packet again, with all bytes, as complete packet if it was a start packet and as end packet otherwise. -/
def innerSent (c : Settings) (g : Byte) (f : Nat) (d : List Byte) (b : Byte)
    (react : Settings → InnerState → Option (Settings × InnerState × List Event)) :
    Option (Settings × InnerState × List Event) :=
  if b = 0xF7 then
    if c.enabled then do
      let (c', _, es) ← react c (.sent g (if f = 1 then 0 else 3) d)
      return (c', .plain .idle, .packet (sysexPacket g (if f = 1 then 0 else 3) d) :: es)
    else some (c, .plain .idle, [])
  else if d.length = 14 then none
  else if d.length + 1 = 6 then
    if c.enabled then do
      let (c', _, es) ← react c (.sent g f (d ++ [b]))
      return (c', .plain (.sysex c'.group true (d ++ [b])), .packet (sysexPacket g f (d ++ [b])) :: es)
    else some (c, .plain (.sysex c.group true (d ++ [b])), [])
  else some (c, .sent g f (d ++ [b]), [])

/-- A byte; `react` is what the callback does. There is no result if too many data bytes are fed while the callback for a sysex
packet is running. -/
def innerByte (c : Settings) (st : InnerState) (b : Byte)
    (react : Settings → InnerState → Option (Settings × InnerState × List Event)) :
    Option (Settings × InnerState × List Event) :=
  if b ≥ 0xF8 then
    if c.enabled ∧ b ≠ 0xF9 ∧ b ≠ 0xFD then do
      let (c', st', es) ← react c st
      return (c', st', .packet (shortMessage c.group b []) :: es)
    else some (c, st, [])
  else
    match st with
    | .plain st => innerStep c st b react
    | .sent g f d => if b < 0x80 ∨ b = 0xF7 then innerSent c g f d b react else innerStep c .idle b react

mutual
/-- One call. -/
def innerCall (c : Settings) (st : InnerState) : Parser.Call → Option (Settings × InnerState × List Event)
  | .feed b inside => innerByte c st b (fun c st => innerCalls c st inside)
  | .setGroup g => some ({ c with group := g }, st, [])
  | .enable on => some ({ c with enabled := on }, st, [])
  | .reset => some (c, .plain .idle, [])

/-- A sequence of calls. -/
def innerCalls (c : Settings) (st : InnerState) : List Parser.Call → Option (Settings × InnerState × List Event)
  | [] => some (c, st, [])
  | o :: os => do
    let (c, st, es) ← innerCall c st o
    let (c, st, fs) ← innerCalls c st os
    return (c, st, es ++ fs)
end

/-- The group numbers set anywhere in a call, also by callbacks. -/
inductive SetsGroup : Parser.Call → Byte → Prop where
  | here (g : Byte) : SetsGroup (.setGroup g) g
  | inside (b : Byte) (l : List Parser.Call) (o : Parser.Call) (g : Byte) (ho : o ∈ l) (h : SetsGroup o g) :
    SetsGroup (.feed b l) g

/-- Calls made by a callback, of which the first one that matters is a reset of the receiver or a status byte other than F7
(sysex end): no data byte is fed before, and no F7. Real time bytes and settings do not matter. -/
def Opens : List Parser.Call → Prop
  | [] => True
  | .reset :: _ => True
  | .feed b _ :: l => if b ≥ 0xF8 then Opens l else 0x80 ≤ b ∧ b ≠ 0xF7
  | .setGroup _ :: l => Opens l
  | .enable _ :: l => Opens l

mutual
/-- All callbacks, at any depth, begin that way. -/
def Polite : Parser.Call → Prop
  | .feed _ inside => Opens inside ∧ PoliteAll inside
  | .setGroup _ => True
  | .enable _ => True
  | .reset => True

/-- The same for a sequence of calls. -/
def PoliteAll : List Parser.Call → Prop
  | [] => True
  | o :: os => Polite o ∧ PoliteAll os
end

/-- The callback does not use the receiver, except in the callback for a real time message; and there, the same holds for the
calls it makes. -/
inductive OnlyInRealTime : Parser.Call → Prop where
  | realTime (b : Byte) (l : List Parser.Call) (hb : b ≥ 0xF8) (hl : ∀ o ∈ l, OnlyInRealTime o) : OnlyInRealTime (.feed b l)
  | feed (b : Byte) : OnlyInRealTime (.feed b [])
  | setGroup (g : Byte) : OnlyInRealTime (.setGroup g)
  | enable (on : Bool) : OnlyInRealTime (.enable on)
  | reset : OnlyInRealTime .reset

/-- The callback does not feed the receiver. -/
def NoFeeding : Parser.Call → Prop
  | .feed _ inside => ∀ o ∈ inside, ∀ b l, o ≠ .feed b l
  | _ => True

/-- The callback does nothing but enable or disable callbacks. -/
def OnlyEnables : Parser.Call → Prop
  | .feed _ inside => ∀ o ∈ inside, ∃ on, o = .enable on
  | _ => True

/-- Bytes fed while callbacks leave the receiver alone. -/
def plainBytes (bs : List Byte) : List Parser.Call := bs.map fun b => .feed b []

/-- Parsers that can occur: created with a group below 16, after any sequence of calls, where callbacks may use the parser (with
groups below 16). -/
def ReachedInside (p : Parser) : Prop :=
  ∃ g cb on cs es, g < 16 ∧ (∀ o ∈ cs, ∀ k, SetsGroup o k → k < 16) ∧ (Parser.new g cb on).performAll cs = .ok (p, es)

end Midi.Spec
