import Verif.Spec.Monitor
import Verif.Props.Views
import Verif.Props.Dispatch
import Verif.Props.Stream
import Verif.Props.FlexData
import Verif.Props.FlexText
import Verif.Props.RemakeStream
import Verif.Props.Collector7
import Verif.Props.Collector8
import Verif.Props.ByteStream
import Verif.Props.ByteStreamConvert
import Verif.Props.DiscoveryReachable
import Verif.Props.TranslationOrder

/-!
# C110: a monitor that shows everything it receives
-/

namespace Midi
open Spec CI

/-! ## Helpers -/

theorem noFault_display {α : Type} {x : Except Fault α} : NoFault (display x) ↔ NoFault x := by
  cases x with
  | ok a => exact ⟨fun _ => ⟨a, rfl⟩, fun _ => ⟨(), rfl⟩⟩
  | error e => exact ⟨fun ⟨_, h⟩ => (by cases h), fun ⟨_, h⟩ => by cases h⟩

theorem noFault_seq {α : Type} {a : Except Fault Unit} {b : Except Fault α} : NoFault (a >>= fun _ => b) ↔ NoFault a ∧ NoFault b := by
  cases a with
  | ok u => exact ⟨fun h => ⟨⟨u, rfl⟩, h⟩, fun h => h.2⟩
  | error e => exact ⟨fun ⟨_, h⟩ => (by cases h), fun ⟨⟨_, h⟩, _⟩ => by cases h⟩

theorem noFault_forM {α : Type} {f : α → Except Fault Unit} : ∀ {l : List α}, NoFault (l.forM f) ↔ ∀ x ∈ l, NoFault (f x)
  | [] => ⟨fun _ x hx => (by cases hx), fun _ => ⟨(), rfl⟩⟩
  | a :: l => by
    show NoFault (f a >>= fun _ => l.forM f) ↔ _
    rw [noFault_seq, noFault_forM (l := l)]
    exact ⟨fun h x hx => by
      rcases List.mem_cons.1 hx with rfl | hx
      exacts [h.1, h.2 x hx], fun h => ⟨h a (by simp), fun x hx => h x (by simp [hx])⟩⟩

theorem noFault_view {α β : Type} {view : α → Except Fault (Option β)} {l : List (β → Except Fault Unit)} {x : α} {o : Option β}
    (h : view x = .ok o) : NoFault (displayView view l x) ↔ ∀ v ∈ o, ∀ f ∈ l, NoFault (f v) := by
  unfold displayView
  rw [h]
  cases o with
  | none => exact ⟨fun _ v hv => (by cases hv), fun _ => ⟨(), rfl⟩⟩
  | some v =>
    show NoFault (l.forM (· v)) ↔ _
    rw [noFault_forM]
    exact ⟨fun h w hw => by obtain rfl := Option.some.inj hw; exact h, fun h => h v rfl⟩

theorem noFault_getByte (p : Packet) {i : Nat} (h : i < 16) : NoFault (p.getByte i) := ⟨_, Packet.getByte_lt p h⟩

theorem noFault_text (p : Packet) (k : Nat) (h : k ≤ 16) : NoFault (readText Packet.getByte7 p k) := by
  obtain ⟨t, ht, -⟩ := readText_again (m := (· &&& 0x7F)) (fun p i h => getByte7_eq p i h) (by decide) p k h
  exact ⟨t, ht⟩

theorem noFault_asMidi2 (p : Packet) : NoFault (asMidi2 p) := by
  have hb : NoFault (pitchBendOf14 (midi1Value14 p)) := by
    obtain ⟨r, hr, -⟩ := pitchBendOf14_value (midi1Value14 p) (by
      unfold midi1Value14 midi1Data1 midi1Data2
      have : ∀ a b : Byte, ((a &&& 0x7F).setWidth 16 ||| ((b &&& 0x7F).setWidth 16 <<< 7) : U16).toNat < 2 ^ 14 := by
        intro a b
        have : ((a &&& 0x7F).setWidth 16 ||| ((b &&& 0x7F).setWidth 16 <<< 7) : U16) &&& 0x3FFF =
          ((a &&& 0x7F).setWidth 16 ||| ((b &&& 0x7F).setWidth 16 <<< 7) : U16) := by bits
        rw [← this, BitVec.toNat_and]
        exact Nat.lt_of_le_of_lt Nat.and_le_right (by decide)
      exact this _ _)
    exact ⟨r, hr⟩
  unfold asMidi2
  dsimp only
  split
  · exact NoFault.ok _
  split
  · split <;> exact NoFault.ok _
  split
  · exact NoFault.ok _
  split
  · split <;> exact NoFault.ok _
  split
  · exact NoFault.ok _
  split
  · exact NoFault.ok _
  split
  · exact NoFault.map _ hb
  · exact NoFault.ok _

theorem noFault_displayPacket (p : Packet) : NoFault (displayPacket p) ↔ NoFault (processor p) := by
  have ifs : ∀ {c : Prop} [Decidable c] {a b : Except Fault Unit}, (c → NoFault a) → NoFault b → NoFault (if c then a else b) :=
    fun h1 h2 => by split; exacts [h1 ‹_›, h2]
  have seq : ∀ {a b : Except Fault Unit}, NoFault a → (NoFault (a >>= fun _ => b) ↔ NoFault b) :=
    fun h => ⟨fun x => (noFault_seq.1 x).2, fun x => noFault_seq.2 ⟨h, x⟩⟩
  obtain ⟨v1, v2, v3, v4, v5, v6, v7, v8, v9⟩ := C45_views p
  have text := noFault_text
  have opt : ∀ {c : Prop} [Decidable c] {v : Packet}, v ∈ (if c then some p else none) → v = p := by
    intro c _ v h
    split at h
    · exact (Option.some.inj h).symm
    · cases h
  have hch : NoFault (displayIf p.hasChannel p.channel) := by
    refine ifs (fun h => noFault_display.2 ?_) ⟨(), rfl⟩
    unfold Packet.channel
    rw [assert_ok h]
    exact ⟨_, rfl⟩
  have hut : NoFault (displayIf p.isUtility (utilityView p)) := by
    refine ifs (fun h => noFault_display.2 ?_) ⟨(), rfl⟩
    unfold utilityView
    rw [assert_ok (show (p.type == PacketType.utility) = true from h)]
    exact ⟨_, rfl⟩
  have hsys : NoFault (displayView asSystemView [] p) := by
    have : ∃ o, asSystemView p = .ok o := by
      unfold asSystemView systemView
      by_cases h : isSystemMessage p = true
      · rw [if_pos h, assert_ok (by unfold isSystemMessage at h; simp_all)]; exact ⟨_, rfl⟩
      · rw [if_neg h]; exact ⟨_, rfl⟩
    obtain ⟨o, ho⟩ := this
    exact (noFault_view ho).2 fun _ _ _ hf => by cases hf
  have hm1 : NoFault (displayView asMidi1View [fun v => display (asMidi2 v)] p) := by
    have : ∃ o, asMidi1View p = .ok o := by
      unfold asMidi1View midi1View
      by_cases h : isMidi1CV p = true
      · rw [if_pos h, assert_ok h]; exact ⟨_, rfl⟩
      · rw [if_neg h]; exact ⟨_, rfl⟩
    obtain ⟨o, ho⟩ := this
    refine (noFault_view ho).2 fun v _ f hf => ?_
    obtain rfl := List.mem_singleton.1 hf
    exact noFault_display.2 (noFault_asMidi2 v)
  have hm2 : NoFault (displayView asMidi2View [] p) := by
    have : ∃ o, asMidi2View p = .ok o := by
      unfold asMidi2View midi2View
      by_cases h : isMidi2CV p = true
      · rw [if_pos h, assert_ok (by unfold isMidi2CV at h; simp_all)]; exact ⟨_, rfl⟩
      · rw [if_neg h]; exact ⟨_, rfl⟩
    obtain ⟨o, ho⟩ := this
    exact (noFault_view ho).2 fun _ _ _ hf => by cases hf
  have h7 : NoFault (displayView asSysex7View
      [fun v => (List.range (sysex7PayloadSize v)).forM fun i => display (sysex7PayloadByte v i)] p) := by
    refine (noFault_view (o := if isSysex7Packet p = true then some p else none) ?_).2 fun v hv f hf => ?_
    · unfold asSysex7View sysex7View
      by_cases h : isSysex7Packet p = true
      · rw [if_pos h, assert_ok h, if_pos h]; rfl
      · rw [if_neg h, if_neg h]; rfl
    obtain rfl := opt hv
    obtain rfl := List.mem_singleton.1 hf
    refine noFault_forM.2 fun i hi => noFault_display.2 (noFault_getByte _ ?_)
    have := List.mem_range.1 hi
    have hs : isSysex7Packet v = true := by
      by_contra h
      rw [if_neg h] at hv
      cases hv
    unfold isSysex7Packet at hs
    simp only [Bool.and_eq_true, decide_eq_true_eq] at hs
    have h6 := hs.2
    rw [BitVec.le_def] at h6
    have e6 : (6 : Byte).toNat = 6 := rfl
    unfold sysex7PayloadSize at this
    omega
  have h8 : NoFault (displayView asSysex8View [fun v => display (sysex8StreamId v),
      fun v => (List.range (sysex8PayloadSize v)).forM fun i => display (sysex8PayloadByte v i)] p) := by
    refine (noFault_view (o := if isSysex8Packet p = true then some p else none) ?_).2 fun v hv f hf => ?_
    · unfold asSysex8View sysex8View
      by_cases h : isSysex8Packet p = true
      · rw [if_pos h, assert_ok h, if_pos h]; rfl
      · rw [if_neg h, if_neg h]; rfl
    obtain rfl := opt hv
    rcases List.mem_cons.1 hf with rfl | hf
    · exact noFault_display.2 (noFault_getByte _ (by decide))
    obtain rfl := List.mem_singleton.1 hf
    refine noFault_forM.2 fun i hi => noFault_display.2 (noFault_getByte _ ?_)
    have := List.mem_range.1 hi
    have hs : isSysex8Packet v = true := by
      by_contra h
      rw [if_neg h] at hv
      cases hv
    unfold isSysex8Packet at hs
    simp only [Bool.and_eq_true, decide_eq_true_eq] at hs
    have h6 := hs.2
    rw [BitVec.le_def] at h6
    have e6 : (14 : Byte).toNat = 14 := rfl
    unfold sysex8PayloadSize at this
    dsimp only at this
    split at this <;> omega
  have hfl : NoFault (displayView asFlexData [fun v => display (flexPayloadAsString v)] p) := by
    refine (noFault_view (C46_view p)).2 fun v hv f hf => ?_
    obtain rfl := List.mem_singleton.1 hf
    obtain ⟨t, ht⟩ := readText_ok v 12 (by decide)
    exact noFault_display.2 ⟨t, ht⟩
  have hn : ∀ {view : Packet → Except Fault (Option Packet)} {o : Option Packet}, view p = .ok o → NoFault (displayView view [] p) :=
    fun h => (noFault_view h).2 fun _ _ _ hf => by cases hf
  have h1 : ∀ {view : Packet → Except Fault (Option Packet)} {o : Option Packet} {a : Packet → Except Fault (List Byte)}, view p = .ok o →
      (∀ v, NoFault (a v)) → NoFault (displayView view [fun v => display (a v)] p) :=
    fun h ha => (noFault_view h).2 fun v _ f hf => by
      obtain rfl := List.mem_singleton.1 hf
      exact noFault_display.2 (ha v)
  have get : ∀ (v : Packet) {i : Nat} {α : Type} (g : Byte → α), i < 16 → NoFault (do return g (← v.getByte i)) :=
    fun v i α g hi => NoFault.bind (noFault_getByte v hi) fun _ _ => NoFault.ok _
  have hei : NoFault (displayView asEndpointInfo [fun v => display (EndpointInfoView.numFunctionBlocks v),
      fun v => display (EndpointInfoView.staticFunctionBlocks v), fun v => display (EndpointInfoView.protocols v),
      fun v => display (EndpointInfoView.extensions v)] p) := by
    refine (noFault_view v2).2 fun v _ f hf => ?_
    simp only [List.mem_cons, List.not_mem_nil, or_false] at hf
    rcases hf with rfl | rfl | rfl | rfl <;> exact noFault_display.2 (get v _ (by decide))
  have hfb : NoFault (displayView asFunctionBlockInfo [fun v => display (FunctionBlockInfoView.functionBlock v),
      fun v => display (FunctionBlockInfoView.firstGroup v), fun v => display (FunctionBlockInfoView.numGroupsSpanned v),
      fun v => display (FunctionBlockInfoView.ciMessageVersion v), fun v => display (FunctionBlockInfoView.maxNumSysex8Streams v)] p) := by
    refine (noFault_view v8).2 fun v _ f hf => ?_
    simp only [List.mem_cons, List.not_mem_nil, or_false] at hf
    rcases hf with rfl | rfl | rfl | rfl | rfl
    · exact noFault_display.2 (get v _ (by decide))
    all_goals exact noFault_display.2 (noFault_getByte v (by decide))
  have hbs : NoFault (display (toMidi1ByteStream p)) := noFault_display.2 ⟨_, (C33_to_byte_stream p).1⟩
  have e : NoFault (displayPacket p) ↔ NoFault (display (processor p)) := by
    have rest : NoFault (do
        displayIf p.isUtility (utilityView p)
        displayView asSystemView [] p
        displayView asMidi1View [fun v => display (asMidi2 v)] p
        displayView asMidi2View [] p
        displayView asSysex7View [fun v => (List.range (sysex7PayloadSize v)).forM fun i => display (sysex7PayloadByte v i)] p
        displayView asSysex8View [fun v => display (sysex8StreamId v),
          fun v => (List.range (sysex8PayloadSize v)).forM fun i => display (sysex8PayloadByte v i)] p
        displayView asFlexData [fun v => display (flexPayloadAsString v)] p
        displayView asEndpointDiscovery [] p
        displayView asEndpointInfo [fun v => display (EndpointInfoView.numFunctionBlocks v),
          fun v => display (EndpointInfoView.staticFunctionBlocks v), fun v => display (EndpointInfoView.protocols v),
          fun v => display (EndpointInfoView.extensions v)] p
        displayView asDeviceIdentity [] p
        displayView asEndpointName [fun v => display (endpointNamePayload v)] p
        displayView asProductInstanceId [fun v => display (productInstanceIdPayload v)] p
        displayView asStreamConfiguration [] p
        displayView asFunctionBlockDiscovery [] p
        displayView asFunctionBlockInfo [fun v => display (FunctionBlockInfoView.functionBlock v),
          fun v => display (FunctionBlockInfoView.firstGroup v), fun v => display (FunctionBlockInfoView.numGroupsSpanned v),
          fun v => display (FunctionBlockInfoView.ciMessageVersion v), fun v => display (FunctionBlockInfoView.maxNumSysex8Streams v)] p
        displayView asFunctionBlockName [fun v => display (functionBlockNamePayload v)] p
        display (toMidi1ByteStream p)) := by
      refine (seq hut).2 ((seq hsys).2 ((seq hm1).2 ((seq hm2).2 ((seq h7).2 ((seq h8).2 ((seq hfl).2 ((seq (hn v1)).2 ((seq hei).2
        ((seq (hn v3)).2 ((seq (h1 v4 ?_)).2 ((seq (h1 v5 ?_)).2 ((seq (hn v6)).2 ((seq (hn v7)).2 ((seq hfb).2
        ((seq (h1 v9 ?_)).2 hbs)))))))))))))))
      · exact fun v => noFault_text v 14 (by decide)
      · exact fun v => noFault_text v 14 (by decide)
      · exact fun v => noFault_text v 13 (by decide)
    unfold displayPacket
    refine (seq hch).trans ?_
    exact ⟨fun x => (noFault_seq.1 x).1, fun x => noFault_seq.2 ⟨x, rest⟩⟩
  exact e.trans noFault_display

theorem noFault_CI {validate : Sysex → Except Fault Bool} {l : List (Sysex → Except Fault Unit)} {m : Sysex} {a : Prop}
    (h : ViewSafe validate m a) (hl : a → ∀ f ∈ l, NoFault (f m)) : NoFault (displayCI validate l m) := by
  obtain ⟨b, -, hv, ha⟩ := h
  refine (noFault_view hv).2 fun v hb f hf => ?_
  cases b with
  | false => cases hb
  | true =>
    obtain rfl := Option.some.inj hb
    obtain ⟨a1, a2, a3, a4, a5, a6, a7⟩ := ha rfl
    rcases List.mem_append.1 hf with hf | hf
    · simp only [List.mem_cons, List.not_mem_nil, or_false] at hf
      rcases hf with rfl | rfl | rfl | rfl | rfl | rfl <;> exact noFault_display.2 ‹_›
    · exact hl a7 f hf

theorem noFault_property {m : Sysex} (h : Spec.PropertyDataSafe m) : ∀ f ∈ displayProperty, NoFault (f m) := by
  intro f hf
  obtain ⟨a1, a2, a3, a4, a5, a6, a7⟩ := h
  simp only [displayProperty, List.mem_cons, List.not_mem_nil, or_false] at hf
  rcases hf with rfl | rfl | rfl | rfl | rfl | rfl | rfl <;> exact noFault_display.2 ‹_›

theorem noFault_displayOther (m : Sysex) : NoFault (displayOther m) := by
  obtain ⟨u1, u2, u3, u4, u5, u6, -⟩ := C39_universal m
  have seq : ∀ {a b : Except Fault Unit}, NoFault a → NoFault b → NoFault (a >>= fun _ => b) := fun h x => noFault_seq.2 ⟨h, x⟩
  unfold displayOther
  refine seq (noFault_display.2 u1) (seq (noFault_display.2 u2) (seq (noFault_display.2 u3) (seq (noFault_display.2 u4)
    (seq (noFault_display.2 u5) (seq ?_ (seq ?_ (seq (noFault_CI (C39_capability_inquiry m) fun _ f hf => by cases hf) (seq ?_ (seq ?_
    (seq ?_ (seq ?_ (seq ?_ (seq (noFault_CI (C39_profile_inquiry m) fun _ f hf => by cases hf) (seq ?_ (seq ?_ (seq ?_ (seq ?_ (seq ?_
    (seq ?_ (seq ?_ (seq (noFault_CI (C39_property_data m) noFault_property) (seq (noFault_CI (C39_get_property_data m) noFault_property)
    (seq (noFault_CI (C39_set_property_data m) noFault_property) (seq (noFault_CI (C39_subscription m) noFault_property)
    (seq (noFault_CI (C39_notify m) noFault_property) (seq ?_ (seq ?_ ?_)))))))))))))))))))))))))))
  · obtain ⟨o, ho⟩ := u6
    refine (noFault_view ho).2 fun v hv f hf => ?_
    obtain rfl : o = some v := hv
    have e : v = m := by
      unfold UniversalSysex.asView UniversalSysex.makeView at ho
      split at ho
      · rename_i hu
        simp only [UniversalSysex.isUniversal, Bool.and_eq_true] at hu
        rw [assert_ok hu.1, assert_ok (by simpa using hu.2)] at ho
        exact (Option.some.inj (Except.ok.inj ho)).symm
      · cases ho
    subst e
    obtain ⟨a1, a2, a3⟩ := C39_universal_view v ho
    simp only [List.mem_cons, List.not_mem_nil, or_false] at hf
    rcases hf with rfl | rfl | rfl <;> exact noFault_display.2 ‹_›
  · obtain ⟨b, -, hv, -, ha⟩ := C39_identity_reply m
    refine (noFault_view hv).2 fun v hb f hf => ?_
    cases b with
    | false => cases hb
    | true =>
      obtain rfl := Option.some.inj hb
      obtain rfl := List.mem_singleton.1 hf
      exact noFault_display.2 (ha rfl).2.2.2
  · exact noFault_CI (C39_endpoint_information_inquiry m) fun h => by simpa [noFault_display] using h
  · exact noFault_CI (C39_endpoint_information_reply m) fun h => by simpa [noFault_display] using h
  · exact noFault_CI (C39_ack m) fun h => by simpa [noFault_display] using h
  · exact noFault_CI (C39_nak m) fun h => by simpa [noFault_display] using h
  · exact noFault_CI (C39_invalidate_muid m) fun h => by simpa [noFault_display] using h
  · exact noFault_CI (C39_profile_inquiry_reply m) fun h => by simpa [noFault_display] using h
  · exact noFault_CI (C39_profile_id m) fun h => by simpa [noFault_display] using h
  · exact noFault_CI (C39_profile_destination m) fun h => by simpa [noFault_display] using h
  · exact noFault_CI (C39_profile_details_inquiry m) fun h => by simpa [noFault_display] using h
  · exact noFault_CI (C39_profile_details_reply m) fun h => by simpa [noFault_display] using h
  · exact noFault_CI (C39_profile_specific_data m) fun h => by simpa [noFault_display] using h
  · exact noFault_CI (C39_property_exchange_capabilities m) fun h => by simpa [noFault_display] using h
  · exact noFault_CI (C39_process_inquiry_capabilities_reply m) fun h => by simpa [noFault_display] using h
  · exact noFault_CI (C39_midi_message_report_inquiry m) fun h => by simpa [noFault_display] using h
  · exact noFault_CI (C39_midi_message_report_reply m) fun h => by simpa [noFault_display] using h

theorem noFault_discovery {m : Sysex} (h : 4 ≤ m.data.length ∨ m.manufacturerID ≠ 0x7E0000) : NoFault (displayDiscovery m) := by
  refine noFault_seq.2 ⟨?_, ?_⟩
  · exact noFault_CI (C39_discovery_inquiry_partial m h) fun h => by simpa [noFault_display] using h
  · exact noFault_CI (C39_discovery_reply_partial m h) fun h => by simpa [noFault_display] using h

theorem collectors_step (w : Monitor) (careful : Bool) (p : Packet) : ∃ c7 ms c8 ns, w.c7.feed p = .ok (c7, ms) ∧
    w.c8.feed p = .ok (c8, ns) ∧ (NoFault (w.receive careful p) ↔ NoFault (displayPacket p) ∧
      (∀ m ∈ ms, NoFault (displayMessage careful m)) ∧ ∀ n ∈ ns, NoFault (displayMessage careful n.1)) ∧
    ∀ v, w.receive careful p = .ok v → v = ⟨c7, c8⟩ := by
  have h7 : ∃ x, w.c7.feed p = .ok x := by
    obtain ⟨d, out, h, -⟩ := C21_never_faults [p] w.c7
    rcases e : w.c7.feed p with x | x
    · rw [Collector7.feedAll, e] at h; cases h
    · exact ⟨x, rfl⟩
  have h8 : ∃ x, w.c8.feed p = .ok x := by
    obtain ⟨d, out, h, -⟩ := C24_never_faults [p] w.c8
    rcases e : w.c8.feed p with x | x
    · rw [Collector8.feedAll, e] at h; cases h
    · exact ⟨x, rfl⟩
  obtain ⟨⟨c7, ms⟩, e7⟩ := h7
  obtain ⟨⟨c8, ns⟩, e8⟩ := h8
  have e : w.receive careful p = (displayPacket p >>= fun _ => ms.forM (displayMessage careful) >>= fun _ =>
      (ns.forM fun n => displayMessage careful n.1) >>= fun _ => .ok ⟨c7, c8⟩) := by
    unfold Monitor.receive
    rw [e7, e8]
    rfl
  refine ⟨c7, ms, c8, ns, e7, e8, ?_, ?_⟩
  · rw [e, noFault_seq, noFault_seq, noFault_seq, noFault_forM, noFault_forM]
    exact ⟨fun h => ⟨h.1, h.2.1, h.2.2.1⟩, fun h => ⟨h.1, h.2.1, h.2.2, _, rfl⟩⟩
  · intro v hv
    rw [e] at hv
    rcases h1 : displayPacket p with x | x <;> rw [h1] at hv
    · cases hv
    rcases h2 : ms.forM (displayMessage careful) with x | x <;> rw [h2] at hv
    · cases hv
    rcases h3 : (ns.forM fun n => displayMessage careful n.1) with x | x <;> rw [h3] at hv
    · cases hv
    exact (Except.ok.inj hv).symm

/-! ## The property -/

/-- C110: everything about a packet can be shown, whatever the packet is, if and only if it is not a MIDI 1 pitch bend whose second data
byte has the high bit set. -/
theorem C110_packet (p : Packet) : NoFault (displayPacket p) ↔ badBend p = false := by
  rw [noFault_displayPacket]
  refine (C77_defined_partial p).trans ?_
  unfold badBend opcode
  rw [← Bool.not_eq_true, Bool.and_eq_true, Bool.and_eq_true, beq_iff_eq, beq_iff_eq, decide_eq_true_eq, and_assoc]

/-- C110: a careful program can show everything about every sysex message. -/
theorem C110_message_careful (m : Sysex) : NoFault (displayMessage true m) := by
  refine noFault_seq.2 ⟨noFault_displayOther m, ?_⟩
  show NoFault (displayView (asView View.validate) [displayDiscovery] m)
  obtain ⟨b, hb, hv, -⟩ := C39_capability_inquiry m
  refine (noFault_view hv).2 fun v hv f hf => ?_
  cases b with
  | false => cases hv
  | true =>
    obtain rfl := Option.some.inj hv
    obtain rfl := List.mem_singleton.1 hf
    simp only [View.validate, andThen_true, isNonRealtime_true, sizeAtLeast_true] at hb
    exact noFault_discovery (Or.inl (by omega))

/-- C110: any program can show everything about a sysex message if and only if it is not a universal message with less than four bytes of
data. -/
theorem C110_message (m : Sysex) : NoFault (displayMessage false m) ↔ tooShort m = false := by
  have e : NoFault (displayMessage false m) ↔ NoFault (displayDiscovery m) :=
    noFault_seq.trans ⟨fun h => h.2, fun h => ⟨noFault_displayOther m, h⟩⟩
  rw [e]
  constructor
  · intro h
    by_contra hs
    have hs : tooShort m = true := by simpa using hs
    unfold tooShort at hs
    rw [Bool.and_eq_true, beq_iff_eq, decide_eq_true_eq] at hs
    have hr := (C39_discovery_validate_reads_outside m hs.1 hs.2).2.2
    have := (noFault_seq.1 h).1
    unfold displayCI displayView at this
    rw [hr] at this
    obtain ⟨_, this⟩ := this
    cases this
  · intro h
    refine noFault_discovery ?_
    unfold tooShort at h
    rw [Bool.and_eq_false_iff] at h
    rcases h with h | h
    · exact Or.inr (by simpa using h)
    · exact Or.inl (by simpa using h)

theorem watch_iff (careful : Bool) (ps : List Packet) : ∀ w : Monitor, ∃ c7 ms c8 ns, w.c7.feedAll ps = .ok (c7, ms) ∧
    w.c8.feedAll ps = .ok (c8, ns) ∧
    (NoFault (w.watch careful ps) ↔ (∀ p ∈ ps, badBend p = false) ∧ (∀ m ∈ ms, NoFault (displayMessage careful m)) ∧
      ∀ n ∈ ns, NoFault (displayMessage careful n.1)) ∧ ∀ v, w.watch careful ps = .ok v → v = ⟨c7, c8⟩ := by
  induction ps with
  | nil =>
    exact fun w => ⟨w.c7, [], w.c8, [], rfl, rfl, ⟨fun _ => ⟨(by simp), (by simp), (by simp)⟩, fun _ => ⟨w, rfl⟩⟩,
      fun v h => (Except.ok.inj h).symm⟩
  | cons p ps ih =>
    intro w
    obtain ⟨c7, ms, c8, ns, e7, e8, h1, h2⟩ := collectors_step w careful p
    obtain ⟨d7, ms', d8, ns', f7, f8, h3, h4⟩ := ih ⟨c7, c8⟩
    refine ⟨d7, ms ++ ms', d8, ns ++ ns', ?_, ?_, ?_, ?_⟩
    · rw [Collector7.feedAll, e7]
      show (c7.feedAll ps >>= _) = _
      rw [show c7.feedAll ps = .ok (d7, ms') from f7]
      rfl
    · rw [Collector8.feedAll, e8]
      show (c8.feedAll ps >>= _) = _
      rw [show c8.feedAll ps = .ok (d8, ns') from f8]
      rfl
    · have key : NoFault (w.watch careful (p :: ps)) ↔ NoFault (w.receive careful p) ∧ NoFault (Monitor.watch careful ⟨c7, c8⟩ ps) := by
        rw [Monitor.watch]
        rcases e : w.receive careful p with x | v
        · exact ⟨fun ⟨_, h⟩ => (by cases h), fun ⟨⟨_, h⟩, _⟩ => (by cases h)⟩
        · obtain rfl := h2 v e
          exact ⟨fun h => ⟨⟨_, rfl⟩, h⟩, fun h => h.2⟩
      rw [key, h1, h3, C110_packet]
      simp only [List.mem_cons, List.mem_append, or_imp, forall_and, forall_eq]
      tauto
    · intro v hv
      rw [Monitor.watch] at hv
      rcases e : w.receive careful p with x | u <;> rw [e] at hv
      · cases hv
      · obtain rfl := h2 u e
        exact h4 v hv

/-- C110: a careful monitor, in whatever state its collectors are, can receive any packets if and only if no MIDI 1 pitch bend among them
has a second data byte with the high bit set. -/
theorem C110_careful (w : Monitor) (ps : List Packet) : NoFault (w.watch true ps) ↔ ∀ p ∈ ps, badBend p = false := by
  obtain ⟨c7, ms, c8, ns, -, -, h, -⟩ := watch_iff true ps w
  exact h.trans ⟨fun h => h.1, fun h => ⟨h, fun m _ => C110_message_careful m, fun n _ => C110_message_careful n.1⟩⟩

/-- C110: one that is not careful can if and only if, in addition, none of the messages that the collectors deliver is a universal message
with less than four bytes of data. -/
theorem C110_any (w : Monitor) (ps : List Packet) : ∃ c7 ms c8 ns, w.c7.feedAll ps = .ok (c7, ms) ∧ w.c8.feedAll ps = .ok (c8, ns) ∧
    (NoFault (w.watch false ps) ↔ (∀ p ∈ ps, badBend p = false) ∧ (∀ m ∈ ms, tooShort m = false) ∧ ∀ n ∈ ns, tooShort n.1 = false) := by
  obtain ⟨c7, ms, c8, ns, h7, h8, h, -⟩ := watch_iff false ps w
  refine ⟨c7, ms, c8, ns, h7, h8, ?_⟩
  simpa only [C110_message] using h

/-- C110: the collectors of the monitor have then received the packets, and nothing else. -/
theorem C110_collectors (careful : Bool) (w v : Monitor) (ps : List Packet) (h : w.watch careful ps = .ok v) :
    ∃ ms ns, w.c7.feedAll ps = .ok (v.c7, ms) ∧ w.c8.feedAll ps = .ok (v.c8, ns) := by
  obtain ⟨c7, ms, c8, ns, h7, h8, -, e⟩ := watch_iff careful ps w
  obtain rfl := e v h
  exact ⟨ms, ns, h7, h8⟩

/-- C110: a careful monitor can be connected to a byte stream parser with whatever history: none of the packets and sysex messages that
come out of it, for whatever bytes, makes it fail. -/
theorem C110_cable (g : Byte) (cb on : Bool) (ops : List Parser.Op) (hg : g < 16) (hv : ValidGroups ops) (w : Monitor) :
    ∃ p es, (Parser.new g cb on).run ops = .ok (p, es) ∧ NoFault (w.watchEvents true es) := by
  obtain ⟨p, es, h, hw, -⟩ := C25_parser_output g cb on ops hg hv
  refine ⟨p, es, h, ?_⟩
  have hp : ∀ q, .packet q ∈ es → badBend q = false := by
    intro q hq
    have := (hw q hq).1.data 3 (by decide) (by decide)
    rw [BitVec.lt_def, show (0x80 : Byte).toNat = 128 from rfl] at this
    unfold badBend
    rw [Bool.and_eq_false_iff]
    exact Or.inr (decide_eq_false (by omega))
  clear h hw
  induction es generalizing w with
  | nil => exact ⟨w, rfl⟩
  | cons e es ih =>
    cases e with
    | packet q =>
      have := (C110_careful w [q]).2 fun r hr => by
        obtain rfl := List.mem_singleton.1 hr
        exact hp _ (by simp)
      rw [Monitor.watchEvents]
      rcases e : w.receive true q with x | v
      · rw [Monitor.watch, e] at this
        obtain ⟨_, this⟩ := this
        cases this
      · exact ih v fun r hr => hp r (by simp [hr])
    | sysex m =>
      exact noFault_seq.2 ⟨C110_message_careful m, ih w fun r hr => hp r (by simp [hr])⟩

/-- C110: a monitor that is not careful fails for three bytes on a cable, a universal message without data. -/
theorem C110_three_bytes (w : Monitor) : ∃ p es, (Parser.new 0 true true).feedAll [0xF0, 0x7E, 0xF7] = .ok (p, es) ∧
    w.watchEvents false es = .error .outOfBounds := by
  refine ⟨_, _, rfl, ?_⟩
  rfl

/-- C110: the packet for which every monitor fails. -/
theorem C110_bad_bend (careful : Bool) (w : Monitor) : w.watch careful [⟨0x20E00080, 0, 0, 0⟩] = .error .badShift := by
  rfl

example : badBend ⟨0x20E0007F, 0, 0, 0⟩ = false ∧ tooShort ⟨0x7E0000, [0x10, 0x0D, 0x70, 2]⟩ = false := by decide
example := C110_cable 3 true true [.feed [0xF0, 0x7E, 0xF7], .reset, .feed [0xE1, 0x10, 0x20]] (by decide)
  (by intro g hg; simp at hg) {}
example := C110_collectors true {} _ [⟨0x30127E01, 0, 0, 0⟩, ⟨0x30310300, 0, 0, 0⟩] rfl

end Midi
