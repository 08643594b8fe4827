import Verif.Props.Stream
import Verif.Spec.Endpoint

/-!
# C102: an endpoint that answers discovery, and a client that asks
-/

namespace Midi
open Spec

/-- A text of ASCII characters other than zero. -/
def Spec.Ascii (t : List Byte) : Prop := ∀ b ∈ t, b ≠ 0 ∧ b < 0x80

instance (t : List Byte) : Decidable (Ascii t) := inferInstanceAs (Decidable (∀ b ∈ t, _))

/-- Function blocks that can be described: at most 15 groups, see `C45_sixteen_groups`. -/
def Spec.FunctionBlock.Valid (b : FunctionBlock) : Prop :=
  ValidOptions b.options ∧ b.firstGroup < 16 ∧ b.numGroups < 16 ∧ Ascii b.name

instance (b : FunctionBlock) : Decidable b.Valid := inferInstanceAs (Decidable (_ ∧ _))

/-- Endpoints that can be described, in one of the two protocols. -/
def Spec.Endpoint.Valid (e : Endpoint) : Prop :=
  e.blocks.length ≤ 32 ∧ e.protocols < 4 ∧ e.extensions < 4 ∧ ValidIdentity e.identity ∧ Ascii e.name ∧
    (e.productId.length ≤ 16 ∧ Ascii e.productId) ∧ ((e.protocol = 1 ∨ e.protocol = 2) ∧ e.streamExtensions < 4) ∧
    ∀ b ∈ e.blocks, b.Valid

instance (e : Endpoint) : Decidable e.Valid := inferInstanceAs (Decidable (_ ∧ _))

/-! ## The client -/

theorem hear_eq (k : Known) (p : Packet) : k.hear p =
    if IsStream p 0x01 then do
      return { k with info := some ⟨← EndpointInfoView.numFunctionBlocks p, ← EndpointInfoView.staticFunctionBlocks p,
        ← EndpointInfoView.protocols p, ← EndpointInfoView.extensions p, EndpointInfoView.umpVersion p⟩ }
    else if IsStream p 0x02 then .ok { k with identity := some (deviceIdentityViewIdentity p) }
    else if IsStream p 0x03 then do return { k with name := addPart k.name (streamFormat p) (← endpointNamePayload p) }
    else if IsStream p 0x04 then do
      return { k with productId := addPart k.productId (streamFormat p) (← productInstanceIdPayload p) }
    else if IsStream p 0x11 then do
      let o : FunctionBlockOptions := ⟨FunctionBlockInfoView.active p, FunctionBlockInfoView.direction p, FunctionBlockInfoView.midi1 p,
        FunctionBlockInfoView.uiHint p, ← FunctionBlockInfoView.ciMessageVersion p, ← FunctionBlockInfoView.maxNumSysex8Streams p⟩
      let info : BlockInfo := ⟨o, ← FunctionBlockInfoView.firstGroup p, ← FunctionBlockInfoView.numGroupsSpanned p⟩
      return { k with blockInfo := update k.blockInfo (← FunctionBlockInfoView.functionBlock p) (some info) }
    else if IsStream p 0x12 then do
      let nr := functionBlockNameBlock p
      return { k with blockName := update k.blockName nr (addPart (k.blockName nr) (streamFormat p) (← functionBlockNamePayload p)) }
    else if IsStream p 0x06 then
      .ok { k with config := some (StreamConfigurationView.protocol p, StreamConfigurationView.extensions p) }
    else .ok k := by
  obtain ⟨-, v1, v2, v3, v4, v5, -, v7, v8⟩ := C45_views p
  unfold Known.hear
  rw [v1, v2, v3, v4, v5, v7, v8]
  by_cases h1 : IsStream p 0x01
  · rw [if_pos h1, if_pos h1]; rfl
  by_cases h2 : IsStream p 0x02
  · rw [if_neg h1, if_neg h1, if_pos h2, if_pos h2]; rfl
  by_cases h3 : IsStream p 0x03
  · rw [if_neg h1, if_neg h1, if_neg h2, if_neg h2, if_pos h3, if_pos h3]; rfl
  by_cases h4 : IsStream p 0x04
  · rw [if_neg h1, if_neg h1, if_neg h2, if_neg h2, if_neg h3, if_neg h3, if_pos h4, if_pos h4]; rfl
  rw [if_neg h1, if_neg h1, if_neg h2, if_neg h2, if_neg h3, if_neg h3, if_neg h4, if_neg h4]
  by_cases h5 : IsStream p 0x11
  · rw [if_pos h5, if_pos h5]; rfl
  by_cases h6 : IsStream p 0x12
  · rw [if_neg h5, if_neg h5, if_pos h6, if_pos h6]; rfl
  rw [if_neg h5, if_neg h5, if_neg h6, if_neg h6]
  by_cases h7 : IsStream p 0x06
  · rw [if_pos (.inr h7), if_pos h7]
    have : p.status = StreamStatus.streamConfigurationNotify := by rw [Packet.status_eq]; exact h7.2
    simp only [ok_bind]
    rw [if_pos this]; rfl
  · rw [if_neg h7]
    by_cases h8 : IsStream p 0x05
    · rw [if_pos (.inl h8)]
      have : ¬ p.status = StreamStatus.streamConfigurationNotify := by
        rw [Packet.status_eq, h8.2]; decide
      simp only [ok_bind]
      rw [if_neg this]; rfl
    · rw [if_neg (by rintro (h | h); exacts [h8 h, h7 h])]; rfl

theorem hearAll_append (k : Known) (ps qs : List Packet) :
    k.hearAll (ps ++ qs) = (k.hearAll ps).bind fun k => k.hearAll qs := List.foldlM_append

theorem hearAll_trans {k k1 k2 : Known} {ps qs : List Packet} (h1 : k.hearAll ps = .ok k1) (h2 : k1.hearAll qs = .ok k2) :
    k.hearAll (ps ++ qs) = .ok k2 := by rw [hearAll_append, h1]; exact h2

/-- A text in parts, the first of which replaces what was there. -/
theorem hear_text {put : Known → List Byte → Known} {get : Known → List Byte} {pay : Packet → Except Fault (List Byte)}
    (gp : ∀ k t, get (put k t) = t) (pp : ∀ k s t, put (put k s) t = put k t) {ps : List Packet} {ts : List (List Byte)}
    (hh : ∀ k : Known, ∀ p ∈ ps, ∀ t, pay p = .ok t → k.hear p = .ok (put k (addPart (get k) (streamFormat p) t)))
    (hf : Framed (ps.map fun p => (streamFormat p).code.toNat)) (ht : ps.mapM pay = .ok ts) (k : Known) :
    k.hearAll ps = .ok (put k ts.flatten) := by
  have hc : ∀ f : Format, (f.code.toNat = 0 ∨ f.code.toNat = 1 ↔ f = .complete ∨ f = .start) := by
    intro f; cases f <;> decide
  have split : ∀ {p : Packet} {ps : List Packet} {ts : List (List Byte)}, (p :: ps).mapM pay = .ok ts →
      ∃ t us, pay p = .ok t ∧ ps.mapM pay = .ok us ∧ ts = t :: us := by
    intro p ps ts h
    rw [List.mapM_cons] at h
    cases ht : pay p with
    | error x => rw [ht] at h; cases h
    | ok t =>
      cases hu : ps.mapM pay with
      | error x => rw [ht, hu] at h; cases h
      | ok us => rw [ht, hu] at h; cases h; exact ⟨t, us, rfl, rfl, rfl⟩
  have rest : ∀ (ps : List Packet) (ts : List (List Byte)) (s : List Byte),
      (∀ k : Known, ∀ p ∈ ps, ∀ t, pay p = .ok t → k.hear p = .ok (put k (addPart (get k) (streamFormat p) t))) →
      (∀ p ∈ ps, (streamFormat p).code.toNat = 2 ∨ (streamFormat p).code.toNat = 3) → ps.mapM pay = .ok ts →
      (put k s).hearAll ps = .ok (put k (s ++ ts.flatten)) := by
    intro ps
    induction ps with
    | nil => intro ts s _ _ h; cases h; simp [Known.hearAll, pure, Except.pure]
    | cons p ps ih =>
      intro ts s hh hc' h
      obtain ⟨t, us, e1, e2, rfl⟩ := split h
      have e3 := hh (put k s) p (by simp) t e1
      rw [gp, addPart, if_neg (by rw [← hc]; have := hc' p (by simp); omega), pp] at e3
      unfold Known.hearAll
      rw [List.foldlM_cons, e3, ok_bind]
      have := ih us (s ++ t) (fun k q hq => hh k q (by simp [hq])) (fun q hq => hc' q (by simp [hq])) e2
      rw [List.flatten_cons, ← List.append_assoc]
      exact this
  match ps, hf, ht, hh with
  | [], hf, _, _ => rcases hf with h | ⟨n, h⟩ <;> simp at h
  | p :: ps, hf, ht, hh =>
    obtain ⟨t, us, e1, e2, rfl⟩ := split ht
    have h01 : (streamFormat p).code.toNat = 0 ∨ (streamFormat p).code.toNat = 1 := by
      rcases hf with h | ⟨n, h⟩ <;> simp only [List.map_cons, List.cons.injEq] at h
      exacts [.inl h.1, .inr h.1]
    have e3 := hh k p (by simp) t e1
    rw [addPart, if_pos ((hc _).1 h01)] at e3
    unfold Known.hearAll
    rw [List.foldlM_cons, e3, ok_bind, List.flatten_cons]
    refine rest ps us t (fun k q hq => hh k q (by simp [hq])) (fun q hq => ?_) e2
    have hm : (streamFormat q).code.toNat ∈ ps.map fun p => (streamFormat p).code.toNat := List.mem_map.2 ⟨q, hq, rfl⟩
    rcases hf with h | ⟨n, h⟩ <;> simp only [List.map_cons, List.cons.injEq] at h
    · rw [h.2] at hm; cases hm
    · rw [h.2] at hm
      rcases List.mem_append.1 hm with hm | hm
      · exact .inl (List.eq_of_mem_replicate hm)
      · exact .inr (List.mem_singleton.1 hm)

/-- The packets endpoints tell about themselves in. -/
def Spec.Told (p : Packet) : Prop := ∃ s ∈ [0x01, 0x02, 0x03, 0x04, 0x06, 0x11, 0x12], IsStream p s

theorem ne_of_isStream {p : Packet} {s t : Byte} (h : IsStream p s) (hn : s ≠ t) : ¬ IsStream p t :=
  fun h' => hn (C45_exclusive p s t h h')

theorem told_info {e : Endpoint} (he : e.Valid) (k : Known) : ∃ p,
    makeEndpointInfo (BitVec.ofNat 8 e.blocks.length) e.staticBlocks e.protocols e.extensions 1 1 = .ok p ∧ IsStream p 0x01 ∧
      k.hear p = .ok { k with info := some e.info } := by
  obtain ⟨h1, h2, h3, -⟩ := he
  have hn : BitVec.ofNat 8 e.blocks.length < 128 := by
    rw [BitVec.lt_def, BitVec.toNat_ofNat]; show _ < 128; omega
  obtain ⟨p, e1, -, hs, -, -, hv, a, b, c, d⟩ :=
    C45_endpoint_info (BitVec.ofNat 8 e.blocks.length) e.staticBlocks e.protocols e.extensions 1 1 hn h2 h3
  refine ⟨p, e1, hs, ?_⟩
  rw [hear_eq, if_pos hs, a, b, c, d]
  have : EndpointInfoView.umpVersion p = 0x0101 := BitVec.eq_of_toNat_eq (by rw [hv]; decide)
  rw [this]; rfl

theorem told_identity {e : Endpoint} (he : e.Valid) (k : Known) :
    IsStream (makeDeviceIdentityMessage e.identity) 0x02 ∧
      k.hear (makeDeviceIdentityMessage e.identity) = .ok { k with identity := some e.identity } := by
  obtain ⟨-, -, -, h, -⟩ := he
  obtain ⟨hs, hi⟩ := C45_device_identity e.identity h
  exact ⟨hs, by rw [hear_eq, if_neg (ne_of_isStream hs (by decide)), if_pos hs, hi]⟩

theorem told_name {name : List Byte} (h : Ascii name) (k : Known) : ∃ ps, sendEndpointName name = .ok ps ∧
    (∀ p ∈ ps, IsStream p 0x03) ∧ k.hearAll ps = .ok { k with name := name } := by
  obtain ⟨ps, e1, hs, hf, ht, -⟩ := C44_endpoint_name name
  obtain ⟨ts, e2, e3, -⟩ := ht fun b hb => (ascii_facts (h b hb)).1
  rw [ascii_map h] at e3
  refine ⟨ps, e1, hs, ?_⟩
  rw [← e3]
  refine hear_text (put := fun k t => { k with name := t }) (get := Known.name) (fun _ _ => rfl) (fun _ _ _ => rfl)
    (fun k p hp t h => ?_) hf e2 k
  have hs := hs p hp
  rw [hear_eq, if_neg (ne_of_isStream hs (by decide)), if_neg (ne_of_isStream hs (by decide)), if_pos hs, h]; rfl

theorem told_productId {id : List Byte} (hl : id.length ≤ 16) (h : Ascii id) (k : Known) : ∃ ps, sendProductInstanceId id = .ok ps ∧
    (∀ p ∈ ps, IsStream p 0x04) ∧ k.hearAll ps = .ok { k with productId := id } := by
  obtain ⟨ps, e1, hs, hf, ht⟩ := (C44_product_instance_id id).1 hl
  obtain ⟨ts, e2, e3⟩ := ht h
  refine ⟨ps, e1, hs, ?_⟩
  rw [← e3]
  refine hear_text (put := fun k t => { k with productId := t }) (get := Known.productId) (fun _ _ => rfl) (fun _ _ _ => rfl)
    (fun k p hp t h => ?_) hf e2 k
  have hs := hs p hp
  rw [hear_eq, if_neg (ne_of_isStream hs (by decide)), if_neg (ne_of_isStream hs (by decide)),
    if_neg (ne_of_isStream hs (by decide)), if_pos hs, h]; rfl

theorem told_config {protocol extensions : Byte} (hp : protocol = 1 ∨ protocol = 2) (he : extensions < 4) (k : Known) : ∃ p,
    makeStreamConfigurationNotification protocol extensions = .ok p ∧ IsStream p 0x06 ∧
      k.hear p = .ok { k with config := some (protocol, extensions) } := by
  obtain ⟨-, p, -, e1, -, -, -, hs, -, -, a, b⟩ := (C45_stream_configuration protocol extensions he).1 hp
  refine ⟨p, e1, hs, ?_⟩
  rw [hear_eq]
  rw [if_neg (ne_of_isStream hs (by decide)), if_neg (ne_of_isStream hs (by decide)), if_neg (ne_of_isStream hs (by decide)),
    if_neg (ne_of_isStream hs (by decide)), if_neg (ne_of_isStream hs (by decide)), if_neg (ne_of_isStream hs (by decide)),
    if_pos hs, a, b]

theorem low4 {b : Byte} (h : b < 16) : b % 16 = b := by revert b; decide +kernel

theorem told_blockInfo {b : FunctionBlock} (hb : b.Valid) {nr : Byte} (hn : nr < 32) (k : Known) : ∃ p,
    makeFunctionBlockInfoWith nr b.options b.firstGroup b.numGroups = .ok p ∧ IsStream p 0x11 ∧
      k.hear p = .ok { k with blockInfo := update k.blockInfo nr (some b.info) } := by
  obtain ⟨ho, hg, hc, -⟩ := hb
  obtain ⟨p, e1, hs, a1, a2, a3, a4, a5, a6, a7, a8, a9⟩ := C45_function_block_info_exact nr b.options b.firstGroup b.numGroups hn ho
  refine ⟨p, e1, hs, ?_⟩
  rw [hear_eq]
  rw [if_neg (ne_of_isStream hs (by decide)), if_neg (ne_of_isStream hs (by decide)), if_neg (ne_of_isStream hs (by decide)),
    if_neg (ne_of_isStream hs (by decide)), if_pos hs, a1, a2, a3, a4, a5, a6, a7, a8, a9, low4 hg, low4 hc]
  rfl

theorem update_self {α : Type} (f : Byte → α) (i : Byte) (a : α) : update f i a i = a := if_pos rfl

theorem update_update {α : Type} (f : Byte → α) (i : Byte) (a b : α) : update (update f i a) i b = update f i b := by
  funext j; unfold update; split <;> rfl

theorem told_blockName {name : List Byte} (h : Ascii name) {nr : Byte} (hn : nr < 32) (k : Known) : ∃ ps,
    sendFunctionBlockName nr name = .ok ps ∧ (∀ p ∈ ps, IsStream p 0x12) ∧
      k.hearAll ps = .ok { k with blockName := update k.blockName nr name } := by
  obtain ⟨ps, e1, hs, hnr, hf, ht, -⟩ := C44_function_block_name nr name
  obtain ⟨ts, e2, e3, -⟩ := ht fun b hb => (ascii_facts (h b hb)).1
  rw [ascii_map h] at e3
  refine ⟨ps, e1, hs, ?_⟩
  rw [← e3]
  refine hear_text (put := fun k t => { k with blockName := update k.blockName nr t }) (get := fun k => k.blockName nr)
    (fun _ _ => update_self _ _ _) (fun k s t => by simp only [update_update])
    (fun k p hp t h => ?_) hf e2 k
  have hs := hs p hp
  have hnr := hnr (by rw [BitVec.lt_def] at hn ⊢; exact Nat.lt_trans hn (by decide)) p hp
  rw [hear_eq]
  rw [if_neg (ne_of_isStream hs (by decide)), if_neg (ne_of_isStream hs (by decide)), if_neg (ne_of_isStream hs (by decide)),
    if_neg (ne_of_isStream hs (by decide)), if_neg (ne_of_isStream hs (by decide)), if_pos hs, h, hnr]; rfl

/-! ## The endpoint -/

theorem told_of {p : Packet} {s : Byte} (h : IsStream p s) (hs : s ∈ [0x01, 0x02, 0x03, 0x04, 0x06, 0x11, 0x12]) : Told p :=
  ⟨s, hs, h⟩

theorem whenAsked_false (x : Except Fault (List Packet)) : whenAsked false x = .ok [] := rfl
theorem whenAsked_true (x : Except Fault (List Packet)) : whenAsked true x = x := rfl

/-- Packets the client hears one thing from. -/
theorem heard_single {x : Except Fault Packet} {p : Packet} (hx : x = .ok p) {k k' : Known} (hk : k.hear p = .ok k') :
    single x = .ok [p] ∧ k.hearAll [p] = .ok k' := by
  refine ⟨by rw [hx]; rfl, ?_⟩
  unfold Known.hearAll
  rw [List.foldlM_cons, hk]; rfl

/-- Something the endpoint tells only if it is asked to. -/
theorem heard_whenAsked {c : Bool} {x : Except Fault (List Packet)} {k k' : Known}
    (h : ∃ ps, x = .ok ps ∧ (∀ p ∈ ps, Told p) ∧ k.hearAll ps = .ok k') :
    ∃ ps, whenAsked c x = .ok ps ∧ (∀ p ∈ ps, Told p) ∧ k.hearAll ps = .ok (if c then k' else k) := by
  cases c with
  | true => exact h
  | false => exact ⟨[], rfl, by simp, rfl⟩

theorem heard_answer {e : Endpoint} (he : e.Valid) (d : Packet) (k : Known) : ∃ ps, e.answer d = .ok ps ∧ (∀ p ∈ ps, Told p) ∧
    k.hearAll ps = .ok { k with
      info := if EndpointDiscoveryView.requestsInfo d then some e.info else k.info
      identity := if EndpointDiscoveryView.requestsDeviceIdentity d then some e.identity else k.identity
      name := if EndpointDiscoveryView.requestsName d then e.name else k.name
      productId := if EndpointDiscoveryView.requestsProductInstanceId d then e.productId else k.productId
      config := if EndpointDiscoveryView.requestsStreamConfiguration d then some (e.protocol, e.streamExtensions) else k.config } := by
  obtain ⟨-, -, -, -, hn, ⟨hl, hi⟩, ⟨hp, hx⟩, -⟩ := id he
  have a1 (k : Known) := heard_whenAsked (c := EndpointDiscoveryView.requestsInfo d) (k := k)
    (by
      obtain ⟨p, e1, hs, e2⟩ := told_info he k
      obtain ⟨f1, f2⟩ := heard_single e1 e2
      exact ⟨[p], f1, by simpa using told_of hs (by decide), f2⟩)
  have a2 (k : Known) := heard_whenAsked (c := EndpointDiscoveryView.requestsDeviceIdentity d) (k := k)
    (x := .ok [makeDeviceIdentityMessage e.identity])
    (by
      obtain ⟨hs, e2⟩ := told_identity he k
      exact ⟨[makeDeviceIdentityMessage e.identity], rfl, by simpa using told_of hs (by decide), (heard_single rfl e2).2⟩)
  have a3 (k : Known) := heard_whenAsked (c := EndpointDiscoveryView.requestsName d) (k := k)
    (by
      obtain ⟨ps, e1, hs, e2⟩ := told_name hn k
      exact ⟨ps, e1, fun p hp => told_of (hs p hp) (by decide), e2⟩)
  have a4 (k : Known) := heard_whenAsked (c := EndpointDiscoveryView.requestsProductInstanceId d) (k := k)
    (by
      obtain ⟨ps, e1, hs, e2⟩ := told_productId hl hi k
      exact ⟨ps, e1, fun p hp => told_of (hs p hp) (by decide), e2⟩)
  have a5 (k : Known) := heard_whenAsked (c := EndpointDiscoveryView.requestsStreamConfiguration d) (k := k)
    (by
      obtain ⟨p, e1, hs, e2⟩ := told_config hp hx k
      obtain ⟨f1, f2⟩ := heard_single e1 e2
      exact ⟨[p], f1, by simpa using told_of hs (by decide), f2⟩)
  obtain ⟨p1, b1, t1, c1⟩ := a1 k
  obtain ⟨p2, b2, t2, c2⟩ := a2 _
  obtain ⟨p3, b3, t3, c3⟩ := a3 _
  obtain ⟨p4, b4, t4, c4⟩ := a4 _
  obtain ⟨p5, b5, t5, c5⟩ := a5 _
  refine ⟨p1 ++ p2 ++ p3 ++ p4 ++ p5, ?_, ?_, ?_⟩
  · unfold Endpoint.answer
    rw [b1, b2, b3, b4, b5]; rfl
  · simp only [List.mem_append]
    rintro p ((((h | h) | h) | h) | h)
    exacts [t1 p h, t2 p h, t3 p h, t4 p h, t5 p h]
  · rw [hearAll_trans (hearAll_trans (hearAll_trans (hearAll_trans c1 c2) c3) c4) c5]
    cases EndpointDiscoveryView.requestsInfo d <;> cases EndpointDiscoveryView.requestsDeviceIdentity d <;>
      cases EndpointDiscoveryView.requestsName d <;> cases EndpointDiscoveryView.requestsProductInstanceId d <;>
      cases EndpointDiscoveryView.requestsStreamConfiguration d <;> rfl

/-- What a client keeps about a function block it has asked for with a discovery message. -/
def blockInfoTold (d : Packet) (i : Byte) (b : Option FunctionBlock) (old : Option BlockInfo) : Option BlockInfo :=
  match b with
  | some b => if FunctionBlockDiscoveryView.requestsFunctionBlock d i && FunctionBlockDiscoveryView.requestsInfo d then some b.info
    else old
  | none => old

/-- The same for the name. -/
def blockNameTold (d : Packet) (i : Byte) (b : Option FunctionBlock) (old : List Byte) : List Byte :=
  match b with
  | some b => if FunctionBlockDiscoveryView.requestsFunctionBlock d i && FunctionBlockDiscoveryView.requestsName d then b.name
    else old
  | none => old

theorem heard_block {b : FunctionBlock} (hb : b.Valid) {n : Nat} (hn : n < 32) (d : Packet) (k : Known) : ∃ ps,
    b.answer n d = .ok ps ∧ (∀ p ∈ ps, Told p) ∧ k.hearAll ps = .ok { k with
      blockInfo := update k.blockInfo (BitVec.ofNat 8 n) (blockInfoTold d (BitVec.ofNat 8 n) (some b) (k.blockInfo (BitVec.ofNat 8 n)))
      blockName := update k.blockName (BitVec.ofNat 8 n) (blockNameTold d (BitVec.ofNat 8 n) (some b) (k.blockName (BitVec.ofNat 8 n))) } := by
  have hnr : BitVec.ofNat 8 n < 32 := by rw [BitVec.lt_def, BitVec.toNat_ofNat]; show _ < 32; omega
  unfold FunctionBlock.answer
  generalize BitVec.ofNat 8 n = nr at *
  have a1 (k : Known) := heard_whenAsked (c := FunctionBlockDiscoveryView.requestsInfo d) (k := k)
    (by
      obtain ⟨p, e1, hs, e2⟩ := told_blockInfo hb hnr k
      obtain ⟨f1, f2⟩ := heard_single e1 e2
      exact ⟨[p], f1, by simpa using told_of hs (by decide), f2⟩)
  have a2 (k : Known) := heard_whenAsked (c := FunctionBlockDiscoveryView.requestsName d) (k := k)
    (by
      obtain ⟨ps, e1, hs, e2⟩ := told_blockName hb.2.2.2 hnr k
      exact ⟨ps, e1, fun p hp => told_of (hs p hp) (by decide), e2⟩)
  have self : ∀ {α : Type} (f : Byte → α), update f nr (f nr) = f := by
    intro α f; funext j; unfold update; split
    · rename_i h; rw [h]
    · rfl
  obtain ⟨p1, b1, t1, c1⟩ := a1 k
  obtain ⟨p2, b2, t2, c2⟩ := a2 _
  obtain ⟨ps, f1, f2, f3⟩ := heard_whenAsked (c := FunctionBlockDiscoveryView.requestsFunctionBlock d nr) (k := k)
    ⟨p1 ++ p2, rfl, fun p hp => (List.mem_append.1 hp).elim (t1 p) (t2 p), hearAll_trans c1 c2⟩
  refine ⟨ps, ?_, f2, ?_⟩
  · dsimp only; rw [← f1, b1, b2]; rfl
  · rw [f3]
    unfold blockInfoTold blockNameTold
    cases FunctionBlockDiscoveryView.requestsFunctionBlock d nr <;> cases FunctionBlockDiscoveryView.requestsInfo d <;>
      cases FunctionBlockDiscoveryView.requestsName d <;> simp [self]

theorem heard_blocks (d : Packet) : ∀ (l : List FunctionBlock) (n : Nat) (k : Known), (∀ b ∈ l, b.Valid) → n + l.length ≤ 32 →
    ∃ pss, (l.zipIdx n).mapM (fun (b, i) => b.answer i d) = .ok pss ∧ (∀ p ∈ pss.flatten, Told p) ∧
      k.hearAll pss.flatten = .ok { k with
        blockInfo := fun i => blockInfoTold d i (if n ≤ i.toNat then l[i.toNat - n]? else none) (k.blockInfo i)
        blockName := fun i => blockNameTold d i (if n ≤ i.toNat then l[i.toNat - n]? else none) (k.blockName i) }
  | [], n, k, _, _ => ⟨[], rfl, by simp, by
      have (i : Byte) : (if n ≤ i.toNat then ([] : List FunctionBlock)[i.toNat - n]? else none) = none := by split <;> rfl
      simp only [this]; rfl⟩
  | b :: l, n, k, hv, hl => by
    rw [List.length_cons] at hl
    obtain ⟨p1, b1, t1, c1⟩ := heard_block (hv b (by simp)) (show n < 32 by omega) d k
    obtain ⟨p2, b2, t2, c2⟩ := heard_blocks d l (n + 1) _ (fun b hb => hv b (by simp [hb])) (by omega)
    refine ⟨p1 :: p2, ?_, ?_, ?_⟩
    · rw [List.zipIdx_cons, List.mapM_cons]; dsimp only; rw [b1, b2]; rfl
    · intro p hp
      rw [List.flatten_cons] at hp
      exact (List.mem_append.1 hp).elim (t1 p) (t2 p)
    · rw [List.flatten_cons, hearAll_trans c1 c2]
      have hn : (BitVec.ofNat 8 n).toNat = n := by rw [BitVec.toNat_ofNat]; omega
      have at_i (i : Byte) : (i = BitVec.ofNat 8 n ∧ (if n + 1 ≤ i.toNat then l[i.toNat - (n + 1)]? else none) = none ∧
            (if n ≤ i.toNat then (b :: l)[i.toNat - n]? else none) = some b) ∨
          (i ≠ BitVec.ofNat 8 n ∧ (if n + 1 ≤ i.toNat then l[i.toNat - (n + 1)]? else none) =
            (if n ≤ i.toNat then (b :: l)[i.toNat - n]? else none)) := by
        by_cases h : i = BitVec.ofNat 8 n
        · left
          refine ⟨h, ?_, ?_⟩
          · rw [if_neg (by rw [h, hn]; omega)]
          · rw [if_pos (by rw [h, hn]), h, hn, Nat.sub_self]; rfl
        · right
          refine ⟨h, ?_⟩
          have hne : i.toNat ≠ n := fun h' => h (BitVec.eq_of_toNat_eq (by rw [hn]; exact h'))
          by_cases h2 : n + 1 ≤ i.toNat
          · rw [if_pos h2, if_pos (by omega), show i.toNat - n = (i.toNat - (n + 1)) + 1 by omega]; rfl
          · rw [if_neg h2, if_neg (by omega)]
      congr 2
      · funext i
        rcases at_i i with ⟨h1, h2, h3⟩ | ⟨h1, h2⟩
        · rw [h2, h3, h1]; dsimp only; rw [update_self]; rfl
        · rw [h2]; dsimp only; rw [show ∀ {α : Type} (f : Byte → α) a, update f (BitVec.ofNat 8 n) a i = f i from fun _ _ => if_neg h1]
      · funext i
        rcases at_i i with ⟨h1, h2, h3⟩ | ⟨h1, h2⟩
        · rw [h2, h3, h1]; dsimp only; rw [update_self]; rfl
        · rw [h2]; dsimp only; rw [show ∀ {α : Type} (f : Byte → α) a, update f (BitVec.ofNat 8 n) a i = f i from fun _ _ => if_neg h1]

/-- The endpoint after it was asked for a protocol. -/
def configured (e : Endpoint) (r : Packet) : Endpoint :=
  if e.supports (StreamConfigurationView.protocol r) then
    { e with protocol := StreamConfigurationView.protocol r, streamExtensions := StreamConfigurationView.extensions r }
  else e

theorem receive_eq (e : Endpoint) (p : Packet) : e.receive p =
    if IsStream p 0x00 then (e.answer p).map fun ps => (e, ps)
    else if IsStream p 0x10 then (e.blocks.zipIdx.mapM fun ((b, i) : FunctionBlock × Nat) => b.answer i p).map fun pss : List (List Packet) => (e, pss.flatten)
    else if IsStream p 0x05 then
      (single (makeStreamConfigurationNotification (configured e p).protocol (configured e p).streamExtensions)).map fun ps =>
        (configured e p, ps)
    else .ok (e, []) := by
  obtain ⟨v0, -, -, -, -, v5, v6, -⟩ := C45_views p
  unfold Endpoint.receive
  rw [v0, v5, v6]
  by_cases h0 : IsStream p 0x00
  · rw [if_pos h0, if_pos h0]
    simp only [ok_bind]
    cases e.answer p <;> rfl
  by_cases h1 : IsStream p 0x10
  · rw [if_neg h0, if_neg h0, if_pos h1, if_pos h1]
    simp only [ok_bind]
    cases e.blocks.zipIdx.mapM fun ((b, i) : FunctionBlock × Nat) => b.answer i p <;> rfl
  rw [if_neg h0, if_neg h0, if_neg h1, if_neg h1]
  by_cases h2 : IsStream p 0x05
  · rw [if_pos (.inl h2), if_pos h2]
    have : p.status = StreamStatus.streamConfigurationRequest := by rw [Packet.status_eq]; exact h2.2
    simp only [ok_bind]
    rw [if_pos this]
    show (single (makeStreamConfigurationNotification (configured e p).protocol (configured e p).streamExtensions)).bind
      (fun ps => .ok (configured e p, ps)) = _
    cases single (makeStreamConfigurationNotification (configured e p).protocol (configured e p).streamExtensions) <;> rfl
  · rw [if_neg h2]
    by_cases h8 : IsStream p 0x06
    · rw [if_pos (.inr h8)]
      have : ¬ p.status = StreamStatus.streamConfigurationRequest := by
        rw [Packet.status_eq, h8.2]; decide
      simp only [ok_bind]
      rw [if_neg this]; rfl
    · rw [if_neg (by rintro (h | h); exacts [h2 h, h8 h])]; rfl

theorem supports_iff (e : Endpoint) (protocol : Byte) : e.supports protocol = true ↔
    protocol = 1 ∧ e.protocols.toNat.testBit 0 ∨ protocol = 2 ∧ e.protocols.toNat.testBit 1 := by
  unfold Endpoint.supports
  simp only [Bool.or_eq_true, Bool.and_eq_true, beq_iff_eq, BitVec.testBit_toNat]

theorem extensions_lt (p : Packet) : StreamConfigurationView.extensions p < 4 := by
  unfold StreamConfigurationView.extensions
  generalize p.byte4 = b
  revert b; decide +kernel

theorem configured_valid {e : Endpoint} (he : e.Valid) (p : Packet) : (configured e p).Valid := by
  unfold configured
  split
  · rename_i h
    rw [supports_iff] at h
    obtain ⟨a1, a2, a3, a4, a5, a6, -, a8⟩ := he
    exact ⟨a1, a2, a3, a4, a5, a6, ⟨h.imp And.left And.left, extensions_lt p⟩, a8⟩
  · exact he

theorem notification_told {e : Endpoint} (he : e.Valid) (k : Known) : ∃ ps,
    single (makeStreamConfigurationNotification e.protocol e.streamExtensions) = .ok ps ∧ (∀ p ∈ ps, Told p) ∧
      k.hearAll ps = .ok { k with config := some (e.protocol, e.streamExtensions) } := by
  obtain ⟨-, -, -, -, -, -, ⟨hp, hx⟩, -⟩ := he
  obtain ⟨p, e1, hs, e2⟩ := told_config hp hx k
  obtain ⟨f1, f2⟩ := heard_single e1 e2
  exact ⟨[p], f1, by simpa using told_of hs (by decide), f2⟩

/-- Everything an endpoint can be asked. -/
theorem receive_told {e : Endpoint} (he : e.Valid) (p : Packet) (k : Known) : ∃ e' ps k', e.receive p = .ok (e', ps) ∧ e'.Valid ∧
    (∀ q ∈ ps, Told q) ∧ k.hearAll ps = .ok k' ∧ (k.Correct e → k'.Correct e') := by
  rw [receive_eq]
  by_cases h0 : IsStream p 0x00
  · rw [if_pos h0]
    obtain ⟨ps, e1, t1, e2⟩ := heard_answer he p k
    refine ⟨e, ps, _, by rw [e1]; rfl, he, t1, e2, ?_⟩
    rintro ⟨c1, c2, c3, c4, c5, c6, c7⟩
    refine ⟨?_, ?_, ?_, ?_, ?_, c6, c7⟩ <;> dsimp only <;> split
    exacts [.inr rfl, c1, .inr rfl, c2, .inr rfl, c3, .inr rfl, c4, .inr rfl, c5]
  by_cases h1 : IsStream p 0x10
  · rw [if_neg h0, if_pos h1]
    obtain ⟨pss, e1, t1, e2⟩ := heard_blocks p e.blocks 0 k he.2.2.2.2.2.2.2 (by have := he.1; omega)
    refine ⟨e, pss.flatten, _, by rw [e1]; rfl, he, t1, e2, ?_⟩
    rintro ⟨c1, c2, c3, c4, c5, c6, c7⟩
    refine ⟨c1, c2, c3, c4, c5, fun i => ?_, fun i => ?_⟩
    · simp only [Nat.zero_le, if_true, Nat.sub_zero]
      cases h : e.blocks[i.toNat]? with
      | none => have := c6 i; rw [h] at this; exact this
      | some b =>
        have := c6 i
        rw [h] at this
        simp only [blockInfoTold]
        split
        · exact .inr rfl
        · exact this
    · simp only [Nat.zero_le, if_true, Nat.sub_zero]
      cases h : e.blocks[i.toNat]? with
      | none => have := c7 i; rw [h] at this; exact this
      | some b =>
        have := c7 i
        rw [h] at this
        simp only [blockNameTold]
        split
        · exact .inr rfl
        · exact this
  rw [if_neg h0, if_neg h1]
  by_cases h2 : IsStream p 0x05
  · rw [if_pos h2]
    obtain ⟨ps, e1, t1, e2⟩ := notification_told (configured_valid he p) k
    refine ⟨configured e p, ps, _, by rw [e1]; rfl, configured_valid he p, t1, e2, ?_⟩
    have hc : (configured e p).info = e.info ∧ (configured e p).identity = e.identity ∧ (configured e p).name = e.name ∧
        (configured e p).productId = e.productId ∧ (configured e p).blocks = e.blocks := by
      unfold configured; split <;> exact ⟨rfl, rfl, rfl, rfl, rfl⟩
    obtain ⟨d1, d2, d3, d4, d5⟩ := hc
    rintro ⟨c1, c2, c3, c4, c5, c6, c7⟩
    unfold Known.Correct
    rw [d1, d2, d3, d4, d5]
    exact ⟨c1, c2, c3, c4, .inr rfl, c6, c7⟩
  · rw [if_neg h2]
    exact ⟨e, [], k, rfl, he, by simp, rfl, id⟩

/-! ## C102 -/

/-- C102: an endpoint discovery message, for any of the things that can be asked: the client, whatever it knew before, knows exactly
what it has asked for, and keeps the rest. -/
theorem C102_endpoint (e : Endpoint) (he : e.Valid) (k : Known) (filter major minor : Byte) (hf : filter < 32) :
    ∃ d ps, makeEndpointDiscovery filter major minor = .ok d ∧ e.receive d = .ok (e, ps) ∧ k.hearAll ps = .ok { k with
      info := if filter.toNat.testBit 0 then some e.info else k.info
      identity := if filter.toNat.testBit 1 then some e.identity else k.identity
      name := if filter.toNat.testBit 2 then e.name else k.name
      productId := if filter.toNat.testBit 3 then e.productId else k.productId
      config := if filter.toNat.testBit 4 then some (e.protocol, e.streamExtensions) else k.config } := by
  obtain ⟨d, e1, -, hs, -, -, -, -, r0, r1, r2, r3, r4⟩ := C45_endpoint_discovery filter major minor hf
  obtain ⟨ps, e2, -, e3⟩ := heard_answer he d k
  rw [r0, r1, r2, r3, r4] at e3
  exact ⟨d, ps, e1, by rw [receive_eq, if_pos hs, e2]; rfl, e3⟩

/-- C102: a function block discovery message, for one function block or for all (255): the client knows exactly what it has asked
for, of the function blocks the endpoint has, and keeps the rest. -/
theorem C102_blocks (e : Endpoint) (he : e.Valid) (k : Known) (block filter : Byte) (hb : block < 32 ∨ block = 0xFF)
    (hf : filter < 16) :
    ∃ d ps, makeFunctionBlockDiscovery block filter = .ok d ∧ e.receive d = .ok (e, ps) ∧ k.hearAll ps = .ok { k with
      blockInfo := fun i => match e.blocks[i.toNat]? with
        | some b => if (block = 0xFF ∨ i = block) ∧ filter.toNat.testBit 0 then some b.info else k.blockInfo i
        | none => k.blockInfo i
      blockName := fun i => match e.blocks[i.toNat]? with
        | some b => if (block = 0xFF ∨ i = block) ∧ filter.toNat.testBit 1 then b.name else k.blockName i
        | none => k.blockName i } := by
  obtain ⟨d, e1, -, hs, -, -, r0, r1, r2⟩ := C45_function_block_discovery block filter hb hf
  obtain ⟨pss, e2, -, e3⟩ := heard_blocks d e.blocks 0 k he.2.2.2.2.2.2.2 (by have := he.1; omega)
  refine ⟨d, pss.flatten, e1, by rw [receive_eq, if_neg (ne_of_isStream hs (by decide)), if_pos hs, e2]; rfl, ?_⟩
  rw [e3]
  congr 2
  · funext i
    simp only [Nat.zero_le, if_true, Nat.sub_zero, blockInfoTold, r1, Bool.and_eq_true, r0]
  · funext i
    simp only [Nat.zero_le, if_true, Nat.sub_zero, blockNameTold, r2, Bool.and_eq_true, r0]

/-- C102: a request to use a protocol: the endpoint uses it if it supports it and goes on as before otherwise, and in both cases the
client knows which protocol is in use. -/
theorem C102_protocol (e : Endpoint) (he : e.Valid) (k : Known) (protocol extensions : Byte) (hp : protocol = 1 ∨ protocol = 2)
    (hx : extensions < 4) :
    ∃ d e' ps, makeStreamConfigurationRequest protocol extensions = .ok d ∧ e.receive d = .ok (e', ps) ∧
      e' = (if protocol = 1 ∧ e.protocols.toNat.testBit 0 ∨ protocol = 2 ∧ e.protocols.toNat.testBit 1 then
        { e with protocol := protocol, streamExtensions := extensions } else e) ∧ e'.Valid ∧
      k.hearAll ps = .ok { k with config := some (e'.protocol, e'.streamExtensions) } := by
  obtain ⟨d, -, e1, -, -, -, hs, -, a, b, -⟩ := (C45_stream_configuration protocol extensions hx).1 hp
  obtain ⟨ps, e2, -, e3⟩ := notification_told (configured_valid he d) k
  refine ⟨d, configured e d, ps, e1, ?_, ?_, configured_valid he d, e3⟩
  · rw [receive_eq, if_neg (ne_of_isStream hs (by decide)), if_neg (ne_of_isStream hs (by decide)), if_pos hs, e2]; rfl
  · unfold configured
    rw [a, b]
    by_cases h : e.supports protocol = true
    · rw [if_pos h, if_pos ((supports_iff e protocol).1 h)]
    · rw [if_neg h, if_neg fun h' => h ((supports_iff e protocol).2 h')]

/-- C102: two messages are enough: a client that asks for everything, whatever it knew before, knows everything about the endpoint
and all its function blocks. -/
theorem C102_everything (e : Endpoint) (he : e.Valid) (k : Known) :
    ∃ d1 d2 ps, makeEndpointDiscovery 0x1F 1 1 = .ok d1 ∧ makeFunctionBlockDiscovery 0xFF 3 = .ok d2 ∧
      e.receiveAll [d1, d2] = .ok (e, ps) ∧ ∃ k', k.hearAll ps = .ok k' ∧
      k'.info = some e.info ∧ k'.identity = some e.identity ∧ k'.name = e.name ∧ k'.productId = e.productId ∧
      k'.config = some (e.protocol, e.streamExtensions) ∧
      ∀ (i : Nat) (b : FunctionBlock), e.blocks[i]? = some b →
        k'.blockInfo (BitVec.ofNat 8 i) = some b.info ∧ k'.blockName (BitVec.ofNat 8 i) = b.name := by
  obtain ⟨d1, p1, a1, a2, a3⟩ := C102_endpoint e he k 0x1F 1 1 (by decide)
  obtain ⟨d2, p2, b1, b2, b3⟩ := C102_blocks e he _ 0xFF 3 (by decide) (by decide)
  refine ⟨d1, d2, p1 ++ p2, a1, b1, ?_, _, hearAll_trans a3 b3, rfl, rfl, rfl, rfl, rfl, fun i b h => ?_⟩
  · unfold Endpoint.receiveAll
    rw [a2, ok_bind]
    unfold Endpoint.receiveAll
    dsimp only
    rw [b2, ok_bind]
    unfold Endpoint.receiveAll
    show Except.ok (e, p1 ++ (p2 ++ [])) = _
    rw [List.append_nil]
  · have hi : (BitVec.ofNat 8 i).toNat = i := by
      have := (List.getElem?_eq_some_iff.1 h).1
      have := he.1
      rw [BitVec.toNat_ofNat]; omega
    constructor
    · dsimp only; rw [hi, h]; rfl
    · dsimp only; rw [hi, h]; rfl

/-- C102: for any packets the endpoint receives, of any number of clients and in any order: it never fails, stays valid, and a client
that hears all its answers never knows anything wrong. -/
theorem C102_never_wrong (ps : List Packet) : ∀ (e : Endpoint) (k : Known), e.Valid → k.Correct e →
    ∃ e' qs k', e.receiveAll ps = .ok (e', qs) ∧ e'.Valid ∧ k.hearAll qs = .ok k' ∧ k'.Correct e' := by
  induction ps with
  | nil => intro e k he hk; exact ⟨e, [], k, rfl, he, rfl, hk⟩
  | cons p ps ih =>
    intro e k he hk
    obtain ⟨e1, q1, k1, a1, a2, -, a4, a5⟩ := receive_told he p k
    obtain ⟨e2, q2, k2, b1, b2, b3, b4⟩ := ih e1 k1 a2 (a5 hk)
    refine ⟨e2, q1 ++ q2, k2, ?_, b2, hearAll_trans a4 b3, b4⟩
    unfold Endpoint.receiveAll
    rw [a1, ok_bind]
    dsimp only
    rw [b1]; rfl

/-- C102: in the beginning, knowing nothing, the client knows nothing wrong. -/
theorem C102_knows_nothing (e : Endpoint) : ({} : Known).Correct e :=
  ⟨.inl rfl, .inl rfl, .inl rfl, .inl rfl, .inl rfl, fun _ => .inl rfl, fun _ => .inl rfl⟩

/-- C102: answers are not answered: whatever an endpoint sends, for whatever packet, no endpoint on the same connection reacts to. -/
theorem C102_quiet (e f : Endpoint) (he : e.Valid) (p : Packet) :
    ∃ e' ps, e.receive p = .ok (e', ps) ∧ ∀ q ∈ ps, f.receive q = .ok (f, []) := by
  obtain ⟨e', ps, -, a1, -, a3, -⟩ := receive_told he p {}
  refine ⟨e', ps, a1, fun q hq => ?_⟩
  obtain ⟨s, hs, h⟩ := a3 q hq
  rw [receive_eq]
  rw [if_neg (ne_of_isStream h (by rintro rfl; revert hs; decide)), if_neg (ne_of_isStream h (by rintro rfl; revert hs; decide)),
    if_neg (ne_of_isStream h (by rintro rfl; revert hs; decide))]

/-- C102: other traffic on the same connection does not matter, neither to the endpoint nor to the client: packets that are not
stream messages may come before, after and in between. -/
theorem C102_other_traffic (p : Packet) (h : (p.byteAt 0).toNat / 16 ≠ 15) (e : Endpoint) (k : Known) :
    e.receive p = .ok (e, []) ∧ k.hear p = .ok k := by
  have hn : ∀ s, ¬ IsStream p s := fun s hs => h hs.1
  constructor
  · rw [receive_eq, if_neg (hn _), if_neg (hn _), if_neg (hn _)]
  · rw [hear_eq]
    rw [if_neg (hn _), if_neg (hn _), if_neg (hn _), if_neg (hn _), if_neg (hn _), if_neg (hn _), if_neg (hn _)]

/-- C102: so what the client knows depends on the stream messages it hears only. -/
theorem C102_interleaved (ps : List Packet) : ∀ k : Known,
    k.hearAll ps = k.hearAll (ps.filter fun p => (p.byteAt 0).toNat / 16 = 15) := by
  induction ps with
  | nil => intro k; rfl
  | cons p ps ih =>
    intro k
    by_cases h : (p.byteAt 0).toNat / 16 = 15
    · rw [List.filter_cons_of_pos (by simpa using h)]
      unfold Known.hearAll at ih ⊢
      rw [List.foldlM_cons, List.foldlM_cons]
      cases k.hear p with
      | error x => rfl
      | ok k' => exact ih k'
    · rw [List.filter_cons_of_neg (by simpa using h), ← ih k]
      unfold Known.hearAll
      rw [List.foldlM_cons, (C102_other_traffic p h ⟨false, 0, 0, ⟨0, 0, 0, 0⟩, [], [], 0, 0, []⟩ k).2]; rfl

/-- An endpoint with two function blocks and names that take more than one packet. -/
def exampleEndpoint : Endpoint where
  staticBlocks := true
  protocols := 3
  extensions := 1
  identity := ⟨0x002109, 0x1730, 0x2A01, 0x0102030⟩
  name := List.replicate 40 0x41
  productId := List.replicate 16 0x31
  protocol := 2
  streamExtensions := 0
  blocks := [⟨{}, 0, 1, List.replicate 30 0x42⟩, ⟨{ direction := 1, midi1 := 2, uiHint := 1 }, 1, 3, [0x43]⟩]

theorem exampleEndpoint_valid : exampleEndpoint.Valid := by decide

example := C102_endpoint exampleEndpoint exampleEndpoint_valid {} 0x15 1 1 (by decide)
example := C102_blocks exampleEndpoint exampleEndpoint_valid {} 1 2 (by decide) (by decide)
example := C102_protocol exampleEndpoint exampleEndpoint_valid {} 1 2 (by decide) (by decide)
example := C102_everything exampleEndpoint exampleEndpoint_valid {}
example := C102_never_wrong [⟨0xF0000101, 4, 0, 0⟩, ⟨0xF0050100, 0, 0, 0⟩] exampleEndpoint {} exampleEndpoint_valid (C102_knows_nothing _)
example := C102_quiet exampleEndpoint exampleEndpoint exampleEndpoint_valid ⟨0xF0050100, 0, 0, 0⟩
example := C102_other_traffic ⟨0x20903C7F, 0, 0, 0⟩ (by decide) exampleEndpoint {}

/-- C102: telling requests and notifications apart by the view does not do, there is one for both: an endpoint which reacts to both
would answer its own answers, without end. -/
theorem C102_view_of_both (protocol extensions : Byte) (hp : protocol = 1 ∨ protocol = 2) (hx : extensions < 4) :
    ∃ p q, makeStreamConfigurationRequest protocol extensions = .ok p ∧ makeStreamConfigurationNotification protocol extensions = .ok q ∧
      asStreamConfiguration p = .ok (some p) ∧ asStreamConfiguration q = .ok (some q) ∧
      StreamConfigurationView.protocol p = StreamConfigurationView.protocol q ∧
      StreamConfigurationView.extensions p = StreamConfigurationView.extensions q := by
  obtain ⟨p, q, e1, e2, -, -, hs, ht, a, b, c, d⟩ := (C45_stream_configuration protocol extensions hx).1 hp
  obtain ⟨-, -, -, -, -, v1, -⟩ := C45_views p
  obtain ⟨-, -, -, -, -, v2, -⟩ := C45_views q
  rw [if_pos (.inl hs)] at v1
  rw [if_pos (.inr ht)] at v2
  exact ⟨p, q, e1, e2, v1, v2, a.trans c.symm, b.trans d.symm⟩

example := C102_view_of_both 1 0 (by decide) (by decide)

end Midi
