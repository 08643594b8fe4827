import Verif.Model.Stream

/-!
# An endpoint that answers discovery, and a client that asks

Two applications, written with the factories, views and senders of the library only: an endpoint which tells about itself and its
function blocks when asked, and a client which keeps what it is told.
-/

namespace Midi.Spec

/-- What an endpoint knows about one of its function blocks. -/
structure FunctionBlock where
  options : FunctionBlockOptions
  firstGroup : Byte
  numGroups : Byte
  name : List Byte

/-- What an endpoint knows about itself. `protocols` has bit 0 set if it supports the MIDI 1 protocol, bit 1 for MIDI 2; `protocol` is
the one in use (1 or 2). -/
structure Endpoint where
  staticBlocks : Bool
  protocols : Byte
  extensions : Byte
  identity : DeviceIdentity
  name : List Byte
  productId : List Byte
  protocol : Byte
  streamExtensions : Byte
  blocks : List FunctionBlock

/-- The packets a condition asks for. -/
def whenAsked (c : Bool) (x : Except Fault (List Packet)) : Except Fault (List Packet) := if c then x else .ok []

/-- One packet. -/
def single (x : Except Fault Packet) : Except Fault (List Packet) := x.map fun p => [p]

/-- What the endpoint tells about one function block, asked with the function block discovery message `d`. -/
def FunctionBlock.answer (b : FunctionBlock) (i : Nat) (d : Packet) : Except Fault (List Packet) :=
  let nr := BitVec.ofNat 8 i
  whenAsked (FunctionBlockDiscoveryView.requestsFunctionBlock d nr) do
    let info ← whenAsked (FunctionBlockDiscoveryView.requestsInfo d)
      (single (makeFunctionBlockInfoWith nr b.options b.firstGroup b.numGroups))
    let name ← whenAsked (FunctionBlockDiscoveryView.requestsName d) (sendFunctionBlockName nr b.name)
    return info ++ name

/-- What the endpoint tells about itself, asked with the endpoint discovery message `d`. -/
def Endpoint.answer (e : Endpoint) (d : Packet) : Except Fault (List Packet) := do
  let info ← whenAsked (EndpointDiscoveryView.requestsInfo d)
    (single (makeEndpointInfo (BitVec.ofNat 8 e.blocks.length) e.staticBlocks e.protocols e.extensions 1 1))
  let identity ← whenAsked (EndpointDiscoveryView.requestsDeviceIdentity d) (.ok [makeDeviceIdentityMessage e.identity])
  let name ← whenAsked (EndpointDiscoveryView.requestsName d) (sendEndpointName e.name)
  let productId ← whenAsked (EndpointDiscoveryView.requestsProductInstanceId d) (sendProductInstanceId e.productId)
  let config ← whenAsked (EndpointDiscoveryView.requestsStreamConfiguration d)
    (single (makeStreamConfigurationNotification e.protocol e.streamExtensions))
  return info ++ identity ++ name ++ productId ++ config

/-- Does the endpoint support the protocol. -/
def Endpoint.supports (e : Endpoint) (protocol : Byte) : Bool :=
  protocol == 1 && e.protocols.getLsbD 0 || protocol == 2 && e.protocols.getLsbD 1

/-- What the endpoint does with a packet: it answers discovery messages, and it changes the protocol if it is asked to use one it
supports, and tells which one is in use. Everything else is not its concern, in particular not what other endpoints tell about
themselves: stream configuration notifications, for which there is the same view as for requests, are told apart by their status. -/
def Endpoint.receive (e : Endpoint) (p : Packet) : Except Fault (Endpoint × List Packet) := do
  match ← asEndpointDiscovery p with
  | some d => return (e, ← e.answer d)
  | none =>
  match ← asFunctionBlockDiscovery p with
  | some d => return (e, (← e.blocks.zipIdx.mapM fun (b, i) => b.answer i d).flatten)
  | none =>
  match ← asStreamConfiguration p with
  | some r =>
    if p.status = StreamStatus.streamConfigurationRequest then
      let e := if e.supports (StreamConfigurationView.protocol r) then
          { e with protocol := StreamConfigurationView.protocol r, streamExtensions := StreamConfigurationView.extensions r }
        else e
      return (e, ← single (makeStreamConfigurationNotification e.protocol e.streamExtensions))
    else return (e, [])
  | none => return (e, [])

/-- What the info message of an endpoint says: number of function blocks, whether they are static, protocols, extensions and
version. -/
structure EndpointInfo where
  numBlocks : Byte
  staticBlocks : Bool
  protocols : Byte
  extensions : Byte
  version : U16
deriving DecidableEq

/-- What the info message of a function block says. -/
structure BlockInfo where
  options : FunctionBlockOptions
  firstGroup : Byte
  numGroups : Byte
deriving DecidableEq

/-- What a client knows about an endpoint. -/
structure Known where
  info : Option EndpointInfo := none
  identity : Option DeviceIdentity := none
  name : List Byte := []
  productId : List Byte := []
  config : Option (Byte × Byte) := none
  blockInfo : Byte → Option BlockInfo := fun _ => none
  blockName : Byte → List Byte := fun _ => []

/-- A part of a text: the first one replaces what was there, the others are added to it. -/
def addPart (old : List Byte) (format : Format) (part : List Byte) : List Byte :=
  if format = .complete ∨ format = .start then part else old ++ part

/-- Another value in one place. -/
def update {α : Type} (f : Byte → α) (i : Byte) (a : α) : Byte → α := fun j => if j = i then a else f j

/-- What the client does with a packet. -/
def Known.hear (k : Known) (p : Packet) : Except Fault Known := do
  match ← asEndpointInfo p with
  | some v => return { k with info := some ⟨← EndpointInfoView.numFunctionBlocks v, ← EndpointInfoView.staticFunctionBlocks v,
      ← EndpointInfoView.protocols v, ← EndpointInfoView.extensions v, EndpointInfoView.umpVersion v⟩ }
  | none =>
  match ← asDeviceIdentity p with
  | some v => return { k with identity := some (deviceIdentityViewIdentity v) }
  | none =>
  match ← asEndpointName p with
  | some v => return { k with name := addPart k.name (streamFormat v) (← endpointNamePayload v) }
  | none =>
  match ← asProductInstanceId p with
  | some v => return { k with productId := addPart k.productId (streamFormat v) (← productInstanceIdPayload v) }
  | none =>
  match ← asFunctionBlockInfo p with
  | some v =>
    let o : FunctionBlockOptions := ⟨FunctionBlockInfoView.active v, FunctionBlockInfoView.direction v, FunctionBlockInfoView.midi1 v,
      FunctionBlockInfoView.uiHint v, ← FunctionBlockInfoView.ciMessageVersion v, ← FunctionBlockInfoView.maxNumSysex8Streams v⟩
    let info : BlockInfo := ⟨o, ← FunctionBlockInfoView.firstGroup v, ← FunctionBlockInfoView.numGroupsSpanned v⟩
    return { k with blockInfo := update k.blockInfo (← FunctionBlockInfoView.functionBlock v) (some info) }
  | none =>
  match ← asFunctionBlockName p with
  | some v =>
    let nr := functionBlockNameBlock v
    return { k with blockName := update k.blockName nr (addPart (k.blockName nr) (streamFormat v) (← functionBlockNamePayload v)) }
  | none =>
  match ← asStreamConfiguration p with
  | some v =>
    if p.status = StreamStatus.streamConfigurationNotify then
      return { k with config := some (StreamConfigurationView.protocol v, StreamConfigurationView.extensions v) }
    else return k
  | none => return k

/-- What the endpoint has to tell about itself. -/
def Endpoint.info (e : Endpoint) : EndpointInfo :=
  ⟨BitVec.ofNat 8 e.blocks.length, e.staticBlocks, e.protocols, e.extensions, 0x0101⟩

/-- What the endpoint has to tell about a function block: without user interface hint, it is meant to be used in its direction. -/
def FunctionBlock.info (b : FunctionBlock) : BlockInfo :=
  ⟨{ b.options with uiHint := if b.options.uiHint = 0 then b.options.direction else b.options.uiHint }, b.firstGroup, b.numGroups⟩

/-- The client hears packets one after the other. -/
def Known.hearAll (k : Known) (ps : List Packet) : Except Fault Known := ps.foldlM Known.hear k

/-- The endpoint receives packets one after the other; all its answers. -/
def Endpoint.receiveAll (e : Endpoint) : List Packet → Except Fault (Endpoint × List Packet)
  | [] => .ok (e, [])
  | p :: ps => do
    let (e, answers) ← e.receive p
    let (e, more) ← e.receiveAll ps
    return (e, answers ++ more)

/-- What the client knows is what the endpoint has to tell, as far as it has been told. -/
def Known.Correct (k : Known) (e : Endpoint) : Prop :=
  (k.info = none ∨ k.info = some e.info) ∧ (k.identity = none ∨ k.identity = some e.identity) ∧
  (k.name = [] ∨ k.name = e.name) ∧ (k.productId = [] ∨ k.productId = e.productId) ∧
  (k.config = none ∨ k.config = some (e.protocol, e.streamExtensions)) ∧
  (∀ i, k.blockInfo i = none ∨ k.blockInfo i = e.blocks[i.toNat]?.map FunctionBlock.info) ∧
  ∀ i, k.blockName i = [] ∨ e.blocks[i.toNat]?.map FunctionBlock.name = some (k.blockName i)

end Midi.Spec
