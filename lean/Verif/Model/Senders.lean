import Verif.Model.Sysex
import Verif.Model.Stream

/-!
# Sending to callbacks with any effect

`send_sysex7`, `send_sysex8` and the functions that send names call the function object they are given for each packet. In
`Verif.Model.Sysex` and `Verif.Model.Stream` they return the list of packets. Here the callback `sender` may do whatever can be
done in a monad `m`: change variables, throw exceptions, stop for input, or call the library again. Failed assertions are kept
apart, in `ExceptT Fault`.

Simplification: a callback that changes the packet passed to it by reference is not distinguished from one that does not; the
packet is not used any more after the call (inc/midi/sysex.h 335-338, 342-345, 391-395, 399-402).
-/

namespace Midi

variable {m : Type → Type} [Monad m]

/-- A part of the code that cannot call the callback. -/
def raise {α : Type} (x : Except Fault α) : ExceptT Fault m α := ExceptT.mk (pure x)

/-- `sender(p)`. -/
def callSender (sender : Packet → m Unit) (p : Packet) : ExceptT Fault m Unit := ExceptT.lift (sender p)

/-- The loop over the data bytes in `send_sysex7` (inc/midi/sysex.h 327-340). Returns the final value of `p`. -/
def sendSysex7LoopTo (sender : Packet → m Unit) (group : Byte) (p : Packet) (left : Nat) : List Byte → ExceptT Fault m Packet
  | [] => raise (.ok p)
  | b :: bs => do
    let p ← raise (sysex7AddPayloadByte p b)
    let left := left - 1
    if sysex7PayloadSize p = 6 then
      callSender sender p
      let q ← raise (makeSysex7 (if left ≤ 6 then .fin else .cont) group)
      sendSysex7LoopTo sender group q left bs
    else sendSysex7LoopTo sender group p left bs

/-- `send_sysex7(sysex, group, sender)` (inc/midi/sysex.h 309-346). -/
def sendSysex7To (s : Sysex) (group : Byte) (sender : Packet → m Unit) : ExceptT Fault m Unit := do
  let p ← raise (makeSysex7 (if s.totalDataSize ≤ 6 then .complete else .start) group)
  let p ← raise (sysex7AddPayloadByte p (((s.manufacturerID >>> 16) &&& 0x7F).setWidth 8))
  let p ← raise (if s.manufacturerID &&& 0x00FFFF ≠ 0 then do
      let p ← sysex7AddPayloadByte p (((s.manufacturerID >>> 8) &&& 0x7F).setWidth 8)
      sysex7AddPayloadByte p ((s.manufacturerID &&& 0x7F).setWidth 8)
    else .ok p)
  let p ← sendSysex7LoopTo sender group p s.data.length s.data
  if sysex7PayloadSize p ≠ 0 then callSender sender p else raise (.ok ())

/-- The loop over the data bytes in `send_sysex8` (inc/midi/sysex.h 385-397). -/
def sendSysex8LoopTo (sender : Packet → m Unit) (stream group : Byte) (p : Packet) (left : Nat) : List Byte → ExceptT Fault m Packet
  | [] => raise (.ok p)
  | b :: bs => do
    let p ← raise (sysex8AddPayloadByte p b)
    let left := left - 1
    if sysex8PayloadSize p = 13 then
      callSender sender p
      let q := makeSysex8 (if left ≤ 13 then .fin else .cont) stream group
      sendSysex8LoopTo sender stream group q left bs
    else sendSysex8LoopTo sender stream group p left bs

/-- `send_sysex8(sysex, stream_id, group, sender)` (inc/midi/sysex.h 362-403). -/
def sendSysex8To (s : Sysex) (stream group : Byte) (sender : Packet → m Unit) : ExceptT Fault m Unit := do
  let p := makeSysex8 (if s.totalDataSize ≤ 13 then .complete else .start) stream group
  let p ← raise (if s.manufacturerID &&& 0x00FFFF ≠ 0 then do
      let p ← sysex8AddPayloadByte p ((0x80 : Byte) + ((s.manufacturerID >>> 8) &&& 0x7F).setWidth 8)
      sysex8AddPayloadByte p ((s.manufacturerID &&& 0x7F).setWidth 8)
    else do
      let p ← sysex8AddPayloadByte p 0
      sysex8AddPayloadByte p (((s.manufacturerID >>> 16) &&& 0x7F).setWidth 8))
  let p ← sendSysex8LoopTo sender stream group p s.data.length s.data
  if sysex8PayloadSize p ≠ 0 then callSender sender p else raise (.ok ())

/-- The `while` loop of the `send_*_name` functions, followed by the end packet (inc/midi/stream_message.h 683-689, 726-732). The
fuel bounds the number of iterations, the callers pass the length of the name. -/
def sendNameRestTo (sender : Packet → m Unit) (make : Format → List Byte → Except Fault Packet) (n : Nat) :
    Nat → List Byte → ExceptT Fault m Unit
  | 0, name => do
    let p ← raise (make .fin name)
    callSender sender p
  | fuel + 1, name => do
    if name.length > n then
      let p ← raise (make .cont (name.take n))
      callSender sender p
      sendNameRestTo sender make n fuel (name.drop n)
    else
      let p ← raise (make .fin name)
      callSender sender p

/-- `send_endpoint_name(name, sender)` (inc/midi/stream_message.h 671-691). -/
def sendEndpointNameTo (name : List Byte) (sender : Packet → m Unit) : ExceptT Fault m Unit := do
  if name.length ≤ 14 then
    let p ← raise (makeEndpointName .complete name)
    callSender sender p
  else
    let p ← raise (makeEndpointName .start (name.take 14))
    callSender sender p
    sendNameRestTo sender makeEndpointName 14 name.length (name.drop 14)

/-- `send_product_instance_id(id, sender)` (inc/midi/stream_message.h 695-710). -/
def sendProductInstanceIdTo (id : List Byte) (sender : Packet → m Unit) : ExceptT Fault m Unit := do
  raise (assert (id.length ≤ 16))
  if id.length ≤ 14 then
    let p ← raise (makeProductInstanceId .complete id)
    callSender sender p
  else
    let p ← raise (makeProductInstanceId .start (id.take 14))
    callSender sender p
    let q ← raise (makeProductInstanceId .fin ((id.drop 14).take 2))
    callSender sender q

/-- `send_function_block_name(function_block, name, sender)` (inc/midi/stream_message.h 714-734). -/
def sendFunctionBlockNameTo (functionBlock : Byte) (name : List Byte) (sender : Packet → m Unit) : ExceptT Fault m Unit := do
  if name.length ≤ 13 then
    let p ← raise (makeFunctionBlockName .complete functionBlock name)
    callSender sender p
  else
    let p ← raise (makeFunctionBlockName .start functionBlock (name.take 13))
    callSender sender p
    sendNameRestTo sender (fun f n => makeFunctionBlockName f functionBlock n) 13 name.length (name.drop 13)

end Midi
