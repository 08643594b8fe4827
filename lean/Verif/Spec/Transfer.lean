import Verif.Model.CapabilityInquiry

/-!
# Specification: transfers of property data in several messages (C84)
-/

namespace Midi.Spec
open CI

/-- A transfer of property data: who sends it to whom, the request it belongs to, the header, and the data, cut into chunks somehow. -/
structure Transfer where
  subtype : Byte
  source : Word
  dest : Word
  deviceId : Byte
  requestId : Byte
  header : List Byte
  chunks : List (List Byte)

/-- What a receiver has got of a transfer: header and data so far, and whether that is all. -/
structure Inbox where
  header : List Byte := []
  data : List Byte := []
  complete : Bool := false
deriving DecidableEq, Repr

/-- The receiver's test whether a message belongs to a transfer: it is accepted by `property_data_message_view`, which returns the
right subtype, source and request id. -/
def belongs (t : Transfer) (m : Sysex) : Except Fault Bool := do
  if ← PropertyDataView.validate m then
    let subtype ← UniversalSysex.View.subtype m
    let source ← CI.View.sourceMuid m
    let requestId ← PropertyDataView.requestId m
    return subtype == t.subtype && source == t.source && requestId == t.requestId
  else return false

/-- What the receiver does with every sysex message: from those that belong to the transfer it takes the header, if it is the first
chunk, and appends the data; the last chunk completes the transfer. -/
def Inbox.take (t : Transfer) (b : Inbox) (m : Sysex) : Except Fault Inbox := do
  if ← belongs t m then
    let n ← PropertyDataView.numberOfThisChunk m
    let total ← PropertyDataView.numberOfChunks m
    let header ← PropertyDataView.header m
    let chunk ← PropertyDataView.chunk m
    return { header := if n = 1 then header else b.header, data := b.data ++ chunk, complete := decide (n = total) }
  else return b

/-- All messages, one after the other. -/
def Inbox.takeAll (t : Transfer) (b : Inbox) (ms : List Sysex) : Except Fault Inbox := ms.foldlM (Inbox.take t) b

/-- What a receiver has got if messages may be lost: it also counts the chunks, and notes when one is missing. -/
structure CountingInbox where
  header : List Byte := []
  data : List Byte := []
  /-- The number the next chunk must have. -/
  next : Nat := 1
  /-- A chunk was missing. -/
  broken : Bool := false
  complete : Bool := false
deriving DecidableEq, Repr

/-- As `Inbox.take`, but when the number of a chunk is not the next one, the receiver gives up. -/
def CountingInbox.take (t : Transfer) (b : CountingInbox) (m : Sysex) : Except Fault CountingInbox := do
  if ← belongs t m then
    let n ← PropertyDataView.numberOfThisChunk m
    let total ← PropertyDataView.numberOfChunks m
    let header ← PropertyDataView.header m
    let chunk ← PropertyDataView.chunk m
    return if b.broken || decide (n.toNat ≠ b.next) then { b with broken := true, complete := false }
      else { header := if n = 1 then header else b.header, data := b.data ++ chunk, next := b.next + 1, complete := decide (n = total) }
  else return b

/-- All messages, one after the other. -/
def CountingInbox.takeAll (t : Transfer) (b : CountingInbox) (ms : List Sysex) : Except Fault CountingInbox :=
  ms.foldlM (CountingInbox.take t) b

end Midi.Spec
