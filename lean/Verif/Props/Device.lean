import Verif.Props.Transfer
import Verif.Spec.Device

/-!
# C100: a device that answers MIDI-CI messages

`Device.answer` (Spec/Device.lean) is the code of an application written with the views and factory functions of the library.
The theorems say what comes out for every message that can arrive: what is answered and how, that answers are not answered in
turn, and which messages make an assertion of the library fail.
-/

namespace Midi.Spec
open CI

/-- The device's own data is what the factory functions accept, its MUID is not the broadcast MUID, and it knows discovery
replies and NAKs. -/
structure Device.Proper (d : Device) : Prop where
  muid : U28 d.muid
  notBroadcast : d.muid ≠ 0x0FFFFFFF
  identity : ValidIdentity d.identity
  categories : U7 d.categories
  maxSize : U28 d.maxSize
  functionBlock : U7 d.functionBlock
  reply : 0x71 ∈ d.known
  nak : 0x7F ∈ d.known

/-- The message is a MIDI-CI message for this device or for all devices. -/
def Device.Hears (d : Device) (m : Sysex) : Prop :=
  View.validate m = .ok true ∧ (View.destinationMuid m = .ok d.muid ∨ View.destinationMuid m = .ok 0x0FFFFFFF)

end Midi.Spec

namespace Midi
open Spec UniversalSysex CI

/-- The views of a MIDI-CI message, whatever its bytes. -/
theorem ci_parts {m : Sysex} (hv : CI.View.validate m = .ok true) :
    ∃ dev sub src dst b, UniversalSysex.View.deviceId m = .ok dev ∧ UniversalSysex.View.subtype m = .ok sub ∧
      CI.View.sourceMuid m = .ok src ∧ CI.View.destinationMuid m = .ok dst ∧
      CI.asView CI.View.validate m = .ok (some m) ∧ DiscoveryInquiryView.validate m = .ok b ∧
      CI.asView DiscoveryInquiryView.validate m = .ok (if b then some m else none) ∧
      (b = true → NoFault (Discovery.outputPathId m)) := by
  obtain ⟨b', hb', e1, h1⟩ := C39_capability_inquiry m
  obtain rfl : b' = true := by rw [hv] at hb'; injection hb' with h; exact h.symm
  obtain ⟨⟨dev, e2⟩, -, ⟨sub, e3⟩, -, ⟨src, e4⟩, ⟨dst, e5⟩, -⟩ := h1 rfl
  have h12 : 12 ≤ m.data.length := by
    simp only [CI.View.validate, andThen_true, isNonRealtime_true, sizeAtLeast_true] at hv
    exact hv.2.1
  obtain ⟨b, hb, e6, h6⟩ := C39_discovery_inquiry_partial m (.inl (by omega))
  exact ⟨dev, sub, src, dst, b, e2, e3, e4, e5, e1, hb, e6, fun h => (h6 h).2.2.2.2.2.2.2.2.2⟩

theorem view_of_hears {d : Device} {m : Sysex} (h : d.Hears m) :
    ∃ dst, CI.View.destinationMuid m = .ok dst ∧ (dst = d.muid ∨ dst = 0x0FFFFFFF) := by
  rcases h.2 with e | e
  · exact ⟨_, e, .inl rfl⟩
  · exact ⟨_, e, .inr rfl⟩

/-- A device that satisfies `Proper`. -/
def aDevice : Device := ⟨0x1234567, ⟨0x7D, 1, 2, 3⟩, 0x0E, 512, 0x7F, [0x71, 0x7D, 0x7E, 0x7F]⟩

theorem aDevice_proper : aDevice.Proper :=
  ⟨by decide, by decide, by decide, by decide, by decide, by decide, by decide, by decide⟩

/-- C100: messages that are not MIDI-CI messages, and messages for other devices, get no answer. -/
theorem C100_not_heard (d : Device) (m : Sysex) (h : ¬ d.Hears m) : d.answer m = .ok none := by
  obtain ⟨b, hb, e1, -⟩ := C39_capability_inquiry m
  unfold Device.answer
  cases b with
  | false => rw [e1]; rfl
  | true =>
    obtain ⟨dev, sub, src, dst, b, e2, e3, e4, e5, -⟩ := ci_parts hb
    have hn : ¬ (dst = d.muid ∨ dst = 0x0FFFFFFF) := fun hd => h ⟨hb, by rcases hd with rfl | rfl <;> simp [e5]⟩
    rw [e1]
    simp only [if_true, ok_bind, e5, if_neg hn]
    rfl

/-- C100: a discovery inquiry whose output path id is a 7 bit number is answered with a discovery reply; the reply is a
valid message from this device to the device that asked, and reading it gives back the device's own data and the output path id
of the inquiry. -/
theorem C100_discovery (d : Device) (hd : d.Proper) (m : Sysex) (hm : d.Hears m)
    (hi : DiscoveryInquiryView.validate m = .ok true) (source : Word) (path : Byte)
    (hs : CI.View.sourceMuid m = .ok source) (hs28 : U28 source) (hp : Discovery.outputPathId m = .ok path) (hp7 : U7 path) :
    ∃ r, d.answer m = .ok (some r) ∧
      IsMessage r 2 0x71 0x7F d.muid source (identityBytes d.identity ++
        ([d.categories] ++ (le7 4 d.maxSize.toNat ++ [path, d.functionBlock]))) ["discovery_reply_view"] ∧
      Discovery.identity r = .ok d.identity ∧ Discovery.categories r = .ok d.categories ∧
      Discovery.maximumMessageSize r = .ok d.maxSize ∧ Discovery.outputPathId r = .ok path ∧
      DiscoveryReplyView.functionBlock r = .ok d.functionBlock := by
  obtain ⟨r, er, h⟩ := C40_discovery_reply d.muid source d.identity d.categories d.maxSize path d.functionBlock hd.muid hs28
    hd.identity hd.categories hd.maxSize hp7 hd.functionBlock
  refine ⟨r, ?_, h⟩
  obtain ⟨dst, e0, h0⟩ := view_of_hears hm
  obtain ⟨-, -, -, -, b, -, -, -, -, e5, e6, e7, -⟩ := ci_parts hm.1
  obtain rfl : b = true := by rw [hi] at e6; injection e6 with h; exact h.symm
  unfold Device.answer
  simp only [e5, ok_bind, e0, if_pos h0, e7, if_true, hs, hp, er]
  rfl

/-- C100: any other valid message for this device in particular, of a kind the device does not know, is answered with a
NAK; it goes to the device the message came from, and says which message was not understood. -/
theorem C100_unknown (d : Device) (m : Sysex) (h7 : m.isValid = true) (hv : CI.View.validate m = .ok true)
    (hto : CI.View.destinationMuid m = .ok d.muid) (hi : DiscoveryInquiryView.validate m = .ok false)
    (source : Word) (subtype device : Byte) (hs : CI.View.sourceMuid m = .ok source)
    (ht : UniversalSysex.View.subtype m = .ok subtype) (hdev : UniversalSysex.View.deviceId m = .ok device)
    (hk : subtype ∉ d.known) :
    ∃ r, d.answer m = .ok (some r) ∧
      IsMessage r 2 0x7F device d.muid source [subtype, 0x01, 0, 0, 0, 0, 0, 0, 0, 0] ["nak_view"] ∧
      Nack.transaction r = .ok subtype ∧ Nack.statusCode r = .ok 0x01 ∧ Nack.message r = .ok [] := by
  obtain ⟨dev, sub, src, dst, r, a1, a2, a3, a4, er, h, t1, t2, -, -, -, t3⟩ := C40_nak_for m 0x01 0 ⟨0, 0, 0, 0, 0⟩ [] hv h7
    (by decide) (by decide) (by decide) (by decide) (by decide)
  rw [hdev] at a1; rw [ht] at a2; rw [hs] at a3; rw [hto] at a4
  injection a1 with a1; injection a2 with a2; injection a3 with a3; injection a4 with a4
  subst a1 a2 a3 a4
  refine ⟨r, ?_, h, t1, t2, t3⟩
  obtain ⟨-, -, -, -, b, -, -, -, -, e5, e6, e7, -⟩ := ci_parts hv
  obtain rfl : b = false := by rw [hi] at e6; injection e6 with h; exact h.symm
  unfold Device.answer
  simp only [e5, ok_bind, hto, true_or, if_true, e7, Bool.false_eq_true, if_false, ht]
  rw [if_pos ⟨trivial, hk⟩, er]
  rfl

/-- C100: everything else gets no answer: messages to all devices that are no discovery inquiries, and messages of a kind the
device knows. -/
theorem C100_silent (d : Device) (m : Sysex) (hv : CI.View.validate m = .ok true)
    (hi : DiscoveryInquiryView.validate m = .ok false)
    (hk : CI.View.destinationMuid m ≠ .ok d.muid ∨ ∃ subtype ∈ d.known, UniversalSysex.View.subtype m = .ok subtype) :
    d.answer m = .ok none := by
  by_cases hm : d.Hears m
  swap
  · exact C100_not_heard d m hm
  obtain ⟨dst, e0, h0⟩ := view_of_hears hm
  obtain ⟨-, sub, -, -, b, -, e2, -, -, e5, e6, e7, -⟩ := ci_parts hv
  obtain rfl : b = false := by rw [hi] at e6; injection e6 with h; exact h.symm
  unfold Device.answer
  simp only [e5, ok_bind, e0, if_pos h0, e7, Bool.false_eq_true, if_false, e2]
  rw [if_neg]
  · rfl
  · rintro ⟨rfl, hn⟩
    rcases hk with hk | ⟨st, hst, e⟩
    · exact hk e0
    · rw [e2] at e; injection e with e; subst e; exact hn hst

/-- C100: exactly when answering makes an assertion of the library fail: for a discovery inquiry heard by the device whose
output path id is not a 7 bit number. Nothing else goes wrong, for any bytes received. -/
theorem C100_faults (d : Device) (hd : d.Proper) (m : Sysex) (f : Fault) :
    d.answer m = .error f ↔ f = .assertFailed ∧ d.Hears m ∧ DiscoveryInquiryView.validate m = .ok true ∧
      ∃ path, Discovery.outputPathId m = .ok path ∧ ¬ U7 path := by
  by_cases hm : d.Hears m
  swap
  · rw [C100_not_heard d m hm]; simp [hm]
  obtain ⟨dst, e0, h0⟩ := view_of_hears hm
  obtain ⟨dev, sub, src, dst', b, e1, e2, e3, e4, e5, e6, e7, e8⟩ := ci_parts hm.1
  cases b with
  | false =>
    rw [e6]
    have : ∃ a, d.answer m = .ok a := by
      unfold Device.answer
      simp only [e5, ok_bind, e0, if_pos h0, e7, Bool.false_eq_true, if_false, e2]
      by_cases hc : dst = d.muid ∧ sub ∉ d.known
      · rw [if_pos hc]
        unfold makeNakFor
        rw [e1, e2, e3, e4]
        simp only [ok_bind, makeWithPayload_eq]
        exact ⟨_, rfl⟩
      · rw [if_neg hc]; exact ⟨_, rfl⟩
    obtain ⟨a, ha⟩ := this
    rw [ha]; simp
  | true =>
    obtain ⟨path, hp⟩ := e8 rfl
    have ha : d.answer m = (do
        let r ← makeDiscoveryReply d.muid src d.identity d.categories d.maxSize path d.functionBlock
        pure (some r)) := by
      unfold Device.answer
      simp only [e5, ok_bind, e0, if_pos h0, e7, if_true, e3, hp]
    rw [ha]
    unfold makeDiscoveryReply Discovery.makeMessage
    rw [makeWithPayload_eq, ok_bind, msg_identity _ hd.identity, ok_bind, msg_add7 _ hd.categories, ok_bind,
      msg_add28 _ hd.maxSize, ok_bind]
    by_cases h7 : U7 path
    · rw [msg_add7 _ h7, ok_bind, msg_add7 _ hd.functionBlock]
      simp [hp, h7]
    · have : ∀ s : Sysex, s.addUint7 path = .error .assertFailed := by
        intro s
        unfold Sysex.addUint7
        rw [assert_fail (by
          rw [decide_eq_false_iff_not, BitVec.le_def]
          exact fun h => h7 (Nat.lt_succ_of_le h))]
        rfl
      rw [this]
      simp only [e6, hp, hm, true_and, Except.ok.injEq]
      constructor
      · intro h
        injection h with h
        exact ⟨h.symm, path, rfl, h7⟩
      · rintro ⟨rfl, -⟩
        rfl

/-- What an answer looks like, whichever it is. -/
theorem answer_kind {d : Device} (hd : d.Proper) {m r : Sysex} (h7 : m.isValid = true) (h : d.answer m = .ok (some r)) :
    ∃ source, CI.View.sourceMuid m = .ok source ∧ U28 source ∧
      ((∃ payload, IsMessage r 2 0x71 0x7F d.muid source payload ["discovery_reply_view"]) ∨
        ∃ device payload, IsMessage r 2 0x7F device d.muid source payload ["nak_view"]) := by
  by_cases hm : d.Hears m
  swap
  · rw [C100_not_heard d m hm] at h; cases h
  obtain ⟨dev, sub, src, dst, e1, e2, e3, e4, b1, b2, b3, b4⟩ := ci_reads hm.1 h7
  refine ⟨src, e3, b3, ?_⟩
  obtain ⟨-, -, -, -, b, -, -, -, -, -, e6, -, e8⟩ := ci_parts hm.1
  cases b with
  | true =>
    obtain ⟨path, hp⟩ := e8 rfl
    by_cases hp7 : U7 path
    · obtain ⟨r', hr', hk, -⟩ := C100_discovery d hd m hm e6 src path e3 b3 hp hp7
      rw [hr'] at h
      injection h with h; injection h with h; subst h
      exact .inl ⟨_, hk⟩
    · rw [(C100_faults d hd m .assertFailed).2 ⟨rfl, hm, e6, path, hp, hp7⟩] at h; cases h
  | false =>
    by_cases hc : dst = d.muid ∧ sub ∉ d.known
    · obtain ⟨rfl, hc⟩ := hc
      obtain ⟨r', hr', hk, -⟩ := C100_unknown d m h7 hm.1 e4 e6 src sub dev e3 e2 e1 hc
      rw [hr'] at h
      injection h with h; injection h with h; subst h
      exact .inr ⟨_, _, hk⟩
    · rw [C100_silent d m hm.1 e6] at h
      · cases h
      · by_cases hd' : dst = d.muid
        · exact .inr ⟨sub, by simpa [hd'] using hc, e2⟩
        · exact .inl fun e => hd' (by rw [e4] at e; injection e)

/-- C100: for valid messages (all data 7 bit numbers) answering never fails. -/
theorem C100_valid_answered (d : Device) (hd : d.Proper) (m : Sysex) (h7 : m.isValid = true) : ∃ a, d.answer m = .ok a := by
  cases h : d.answer m with
  | ok a => exact ⟨a, rfl⟩
  | error f =>
    exfalso
    obtain ⟨-, -, -, path, hp, hn⟩ := (C100_faults d hd m f).1 h
    apply hn
    unfold Discovery.outputPathId at hp
    have hs : Seven m.data := ((C53_is_valid m).1 h7).2.2.2.2
    cases hver : CI.View.messageVersion m with
    | error e => rw [hver] at hp; cases hp
    | ok ver =>
      rw [hver, ok_bind] at hp
      by_cases hv : ver ≥ 2
      · rw [if_pos hv, index_iff] at hp
        exact hs _ (List.mem_of_getElem? hp)
      · rw [if_neg hv] at hp
        injection hp with hp
        subst hp
        decide

/-- C100: an answer gets no answer: whatever device receives it, the conversation is over. -/
theorem C100_no_answer_to_answer (d d' : Device) (hd : d.Proper) (hd' : d'.Proper) (m r : Sysex) (h7 : m.isValid = true)
    (h : d.answer m = .ok (some r)) : d'.answer r = .ok none := by
  obtain ⟨src, -, -, h⟩ := answer_kind hd h7 h
  have key : ∀ st dev payload names, IsMessage r 2 st dev d.muid src payload names → st ∈ d'.known → st ≠ 0x70 →
      d'.answer r = .ok none := by
    rintro st dev payload names ⟨hid, hdata, hc, -⟩ hk hne
    refine C100_silent d' r hc.2.1 ?_ (.inr ⟨st, hk, hc.2.2.2.2.1⟩)
    obtain ⟨-, -, -, -, b, -, -, -, -, -, e6, -, -⟩ := ci_parts hc.2.1
    rw [e6]
    cases b with
    | false => rfl
    | true =>
      obtain ⟨st', hm, e⟩ := (views_sound ⟨"discovery_inquiry_view", DiscoveryInquiryView.validate, [0x70]⟩ (by simp [views]) r
        (by rw [hdata]; simp [ciHeader])).2 e6
      rw [hdata] at e
      simp only [ciHeader, List.cons_append, List.getElem?_cons_succ, List.getElem?_cons_zero, Option.some.injEq] at e
      simp only [List.mem_singleton] at hm
      exact absurd (e.trans hm) hne
  rcases h with ⟨payload, h⟩ | ⟨dev, payload, h⟩
  · exact key _ _ _ _ h hd'.reply (by decide)
  · exact key _ _ _ _ h hd'.nak (by decide)

/-- C100: over a MIDI 1 cable nothing goes wrong at all: whatever bytes arrive and however the parser is used, every message
the byte stream parser delivers is answered without fault, every answer can be sent to the other side, where it arrives as it
is, and where no device answers it. -/
theorem C100_cable (d d' : Device) (hd : d.Proper) (hd' : d'.Proper) (g g' : Byte) (hg : g < 16) (hg' : g' < 16)
    (ops : List Parser.Op) (hv : ValidGroups ops) (p' : Parser) (hp' : Reached p') (hcb : p'.hasSysexCallback = true)
    (hon : p'.invokeCallbacks = true) :
    ∃ p es, (Parser.new g true true).run ops = .ok (p, es) ∧
      ∀ m, .sysex m ∈ es → ∃ a, d.answer m = .ok a ∧ ∀ r, a = some r →
        d'.answer r = .ok none ∧
        ∃ ps bss q, sendSysex7 r g' = .ok ps ∧ ps.mapM toMidi1ByteStream = .ok bss ∧
          p'.feedAll bss.flatten = .ok (q, [.sysex r]) := by
  obtain ⟨p, es, e, -, h⟩ := C25_parser_output g true true ops hg hv
  refine ⟨p, es, e, fun m hm => ?_⟩
  have h7 : m.isValid = true := by
    obtain ⟨h1, h2, h3, h4⟩ := (h m hm).2
    refine (C53_is_valid m).2 ⟨by omega, by omega, h3, h4, fun b hb => BitVec.lt_def.1 (h1 b hb)⟩
  obtain ⟨a, ha⟩ := C100_valid_answered d hd m h7
  refine ⟨a, ha, ?_⟩
  rintro r rfl
  refine ⟨C100_no_answer_to_answer d d' hd hd' m r h7 ha, ?_⟩
  have hr : r.manufacturerID = 0x7E0000 ∧ r.isValid = true := by
    obtain ⟨_, _, _, ⟨_, k⟩ | ⟨_, _, k⟩⟩ := answer_kind hd h7 ha
    · exact ⟨k.1, k.2.2.1.1⟩
    · exact ⟨k.1, k.2.2.1.1⟩
  have hs : Sendable7 (r, g') := by
    refine ⟨?_, fun b hb => ?_, hg'⟩
    · rw [show (r, g').1.manufacturerID = _ from hr.1]; decide
    · rw [BitVec.lt_def]
      exact ((C53_is_valid r).1 hr.2).2.2.2.2 b hb
  obtain ⟨ps, bss, q, e1, e2, -, e4⟩ := C35_chain_callback r g' hs p' hp' hcb hon
  exact ⟨ps, bss, q, e1, e2, e4⟩

/-- C100: discovery from one end to the other: a device sends a discovery inquiry; any other device that receives it answers,
the one that asked reads the other's MUID and its data from the answer, and has nothing to answer. -/
theorem C100_handshake (d d' : Device) (hd : d.Proper) (hd' : d'.Proper) (path : Byte) (hp : U7 path) :
    ∃ m r, makeDiscoveryInquiry d.muid d.identity d.categories d.maxSize path = .ok m ∧
      Discovery.identity m = .ok d.identity ∧
      d'.answer m = .ok (some r) ∧
      CI.View.sourceMuid r = .ok d'.muid ∧ CI.View.destinationMuid r = .ok d.muid ∧
      Discovery.identity r = .ok d'.identity ∧ Discovery.categories r = .ok d'.categories ∧
      Discovery.maximumMessageSize r = .ok d'.maxSize ∧ Discovery.outputPathId r = .ok path ∧
      DiscoveryReplyView.functionBlock r = .ok d'.functionBlock ∧
      d.answer r = .ok none := by
  obtain ⟨m, em, hm, i1, -, -, i4⟩ := C40_discovery_inquiry d.muid d.identity d.categories d.maxSize path hd.muid hd.identity
    hd.categories hd.maxSize hp
  have hc := hm.2.2.1
  have hi : DiscoveryInquiryView.validate m = .ok true := by
    exact accepting_true m views _ (by decide +kernel) hm.2.2.2
      ⟨"discovery_inquiry_view", DiscoveryInquiryView.validate, [0x70]⟩ (by simp [views]) (by simp)
  obtain ⟨r, er, hr, r1, r2, r3, r4, r5⟩ := C100_discovery d' hd' m ⟨hc.2.1, .inr hc.2.2.2.2.2.2.2.1⟩ hi d.muid path
    hc.2.2.2.2.2.2.1 hd.muid i4 hp
  exact ⟨m, r, em, i1, er, hr.2.2.1.2.2.2.2.2.2.1, hr.2.2.1.2.2.2.2.2.2.2.1, r1, r2, r3, r4, r5,
    C100_no_answer_to_answer d' d hd' hd m r hc.1 er⟩

/-- C100: answering with `make_nak_message_v1` instead: exactly when an assertion fails, for any MIDI-CI message. -/
theorem C100_nak_v1_faults (m : Sysex) (hv : CI.View.validate m = .ok true) (f : Fault) :
    makeNakV1For m = .error f ↔ f = .assertFailed ∧ ∃ dev src dst, UniversalSysex.View.deviceId m = .ok dev ∧
      CI.View.sourceMuid m = .ok src ∧ CI.View.destinationMuid m = .ok dst ∧ ¬ (U7 dev ∧ U28 src ∧ U28 dst) := by
  obtain ⟨dev, sub, src, dst, b, e1, e2, e3, e4, -⟩ := ci_parts hv
  have h : (f = .assertFailed ∧ ∃ dev src dst, UniversalSysex.View.deviceId m = .ok dev ∧
      CI.View.sourceMuid m = .ok src ∧ CI.View.destinationMuid m = .ok dst ∧ ¬ (U7 dev ∧ U28 src ∧ U28 dst)) ↔
      f = .assertFailed ∧ ¬ (U7 dev ∧ U28 src ∧ U28 dst) := by
    rw [e1, e3, e4]
    constructor
    · rintro ⟨h, _, _, _, a1, a2, a3, h'⟩
      injection a1 with a1; injection a2 with a2; injection a3 with a3
      subst a1 a2 a3
      exact ⟨h, h'⟩
    · rintro ⟨h, h'⟩; exact ⟨h, _, _, _, rfl, rfl, rfl, h'⟩
  rw [h]
  unfold makeNakV1For
  rw [e1, e3, e4]
  simp only [ok_bind]
  by_cases hc : U7 dev ∧ U28 src ∧ U28 dst
  · rw [makeMessage_eq (by decide) hc.2.2 hc.2.1 hc.1, ok_bind, msg_version]
    exact ⟨fun h => absurd h (by simp), fun h => absurd hc h.2⟩
  · have : CI.makeMessage 0x7F dst src dev = .error .assertFailed := by
      unfold CI.makeMessage
      rw [assert_ok (by decide), ok_bind]
      by_cases h1 : dst ≤ 268435455
      · rw [assert_ok (by simpa using h1), ok_bind]
        by_cases h2 : src ≤ 268435455
        · have h3 : ¬ dev ≤ 127 := fun h3 => hc ⟨Nat.lt_succ_of_le h3, Nat.lt_succ_of_le h2, Nat.lt_succ_of_le h1⟩
          rw [assert_ok (by simpa using h2), ok_bind, assert_fail (decide_eq_false h3)]
          rfl
        · rw [assert_fail (decide_eq_false h2)]; rfl
      · rw [assert_fail (decide_eq_false h1)]; rfl
    rw [this]
    simp only [hc, not_false_eq_true, and_true]
    constructor
    · intro h; injection h with h; exact h.symm
    · rintro rfl; rfl

/-- C100: a message in three packets that makes it fail. -/
example : ∃ c m, ({} : Collector7).feedAll [⟨0x30167E80, 0x0D200201, 0, 0⟩, ⟨0x30260203, 0x04670A0D, 0, 0⟩,
    ⟨0x30310900, 0, 0, 0⟩] = .ok (c, [m]) ∧ CI.View.validate m = .ok true ∧ makeNakV1For m = .error .assertFailed :=
  ⟨_, ⟨0x7E0000, [0x80, 0x0D, 0x20, 2, 1, 2, 3, 4, 0x67, 0x0A, 0x0D, 0x09]⟩, rfl, by decide, by decide⟩

/-- C100: packets can bring messages with data that are not 7 bit numbers. This discovery inquiry with output path id 80
(hexadecimal), in five packets, makes an assertion fail in the device that answers it. -/
theorem C100_packets_fault : ∃ c m, ({} : Collector7).feedAll [⟨0x30167E7F, 0x0D700201, 0, 0⟩, ⟨0x30260203, 0x047F7F7F, 0, 0⟩,
      ⟨0x30267F7D, 0x00000100, 0, 0⟩, ⟨0x30260200, 0x03000000, 0, 0⟩, ⟨0x30360E00, 0x04000080, 0, 0⟩] = .ok (c, [m]) ∧
    ∀ d : Device, d.Proper → d.answer m = .error .assertFailed :=
  ⟨_, ⟨0x7E0000, [0x7F, 0x0D, 0x70, 2, 1, 2, 3, 4, 0x7F, 0x7F, 0x7F, 0x7F, 0x7D, 0, 0, 1, 0, 2, 0, 3, 0, 0, 0, 0x0E, 0, 4, 0, 0,
    0x80]⟩, rfl, fun d hd => (C100_faults d hd _ _).2 ⟨rfl, ⟨by decide, .inr (by decide)⟩, by decide, 0x80, by decide, by decide⟩⟩

/-- C100: and the NAK for such a message repeats the byte: it is not a valid message, and when sent it names another one. -/
theorem C100_packets_nak (d : Device) (hk : 0xA5 ∉ d.known) (hmuid : d.muid = 0x1234567) : ∃ c m r ps c',
    ({} : Collector7).feedAll [⟨0x30167E7F, 0x0DA50201, 0, 0⟩, ⟨0x30260203, 0x04670A0D, 0, 0⟩, ⟨0x30310900, 0, 0, 0⟩] =
      .ok (c, [m]) ∧
    d.answer m = .ok (some r) ∧ r.isValid = false ∧ Nack.transaction r = .ok 0xA5 ∧
    sendSysex7 r 0 = .ok ps ∧ ∃ r', ({} : Collector7).feedAll ps = .ok (c', [r']) ∧ Nack.transaction r' = .ok 0x25 := by
  refine ⟨_, ⟨0x7E0000, [0x7F, 0x0D, 0xA5, 2, 1, 2, 3, 4, 0x67, 0x0A, 0x0D, 0x09]⟩,
    ⟨0x7E0000, [0x7F, 0x0D, 0x7F, 2, 0x67, 0x0A, 0x0D, 0x09, 1, 2, 3, 4, 0xA5, 1, 0, 0, 0, 0, 0, 0, 0, 0]⟩, _, _, rfl, ?_,
    by decide, by decide, rfl, _, rfl, by decide⟩
  unfold Device.answer
  simp only [show CI.asView CI.View.validate ⟨0x7E0000, [0x7F, 0x0D, 0xA5, 2, 1, 2, 3, 4, 0x67, 0x0A, 0x0D, 0x09]⟩ =
      .ok (some ⟨0x7E0000, [0x7F, 0x0D, 0xA5, 2, 1, 2, 3, 4, 0x67, 0x0A, 0x0D, 0x09]⟩) from rfl,
    show CI.View.destinationMuid ⟨0x7E0000, [0x7F, 0x0D, 0xA5, 2, 1, 2, 3, 4, 0x67, 0x0A, 0x0D, 0x09]⟩ = .ok 0x1234567 from rfl,
    show CI.asView DiscoveryInquiryView.validate ⟨0x7E0000, [0x7F, 0x0D, 0xA5, 2, 1, 2, 3, 4, 0x67, 0x0A, 0x0D, 0x09]⟩ =
      .ok none from rfl,
    show UniversalSysex.View.subtype ⟨0x7E0000, [0x7F, 0x0D, 0xA5, 2, 1, 2, 3, 4, 0x67, 0x0A, 0x0D, 0x09]⟩ = .ok 0xA5 from rfl,
    ok_bind, hmuid, true_or, if_true, true_and]
  rw [if_pos hk]
  rfl

/-- C100: the hypotheses of the theorems about this device: a discovery inquiry from another device is answered; a profile
inquiry for the device itself is rejected; a NAK for it, and a profile inquiry for another device, are ignored. -/
example : aDevice.answer ⟨0x7E0000, [0x7F, 0x0D, 0x70, 2, 1, 2, 3, 4, 0x7F, 0x7F, 0x7F, 0x7F, 0x7D, 0, 0, 1, 0, 2, 0, 3, 0, 0, 0,
      0x0E, 0, 4, 0, 0, 5]⟩ =
    .ok (some ⟨0x7E0000, [0x7F, 0x0D, 0x71, 2, 0x67, 0x0A, 0x0D, 0x09, 1, 2, 3, 4, 0, 0, 0x7D, 1, 0, 2, 0, 3, 0, 0, 0, 0x0E, 0, 4,
      0, 0, 5, 0x7F]⟩) ∧
    aDevice.answer ⟨0x7E0000, [0x7F, 0x0D, 0x20, 2, 1, 2, 3, 4, 0x67, 0x0A, 0x0D, 0x09]⟩ =
    .ok (some ⟨0x7E0000, [0x7F, 0x0D, 0x7F, 2, 0x67, 0x0A, 0x0D, 0x09, 1, 2, 3, 4, 0x20, 1, 0, 0, 0, 0, 0, 0, 0, 0]⟩) ∧
    aDevice.answer ⟨0x7E0000, [0x7F, 0x0D, 0x7F, 1, 1, 2, 3, 4, 0x67, 0x0A, 0x0D, 0x09]⟩ = .ok none ∧
    aDevice.answer ⟨0x7E0000, [0x7F, 0x0D, 0x20, 2, 1, 2, 3, 4, 0x68, 0x0A, 0x0D, 0x09]⟩ = .ok none := by decide +kernel

example := C100_handshake aDevice { aDevice with muid := 0x7654321 } aDevice_proper
  { aDevice_proper with muid := by decide, notBroadcast := by decide } 3 (by decide)

example := C100_packets_nak aDevice (by decide) rfl

example := C100_not_heard aDevice ⟨0x7E0000, [0x7F, 0x0D, 0x20, 2, 1, 2, 3, 4, 0x68, 0x0A, 0x0D, 0x09]⟩ (by unfold Device.Hears; decide)
example := C100_discovery aDevice aDevice_proper ⟨0x7E0000, [0x7F, 0x0D, 0x70, 2, 1, 2, 3, 4, 0x7F, 0x7F, 0x7F, 0x7F, 0x7D, 0, 0, 1, 0, 2, 0,
  3, 0, 0, 0, 0x0E, 0, 4, 0, 0, 5]⟩ ⟨by decide, .inr (by decide)⟩ (by decide) 0x080C101 5 (by decide) (by decide) (by decide) (by decide)
example := C100_unknown aDevice ⟨0x7E0000, [0x7F, 0x0D, 0x20, 2, 1, 2, 3, 4, 0x67, 0x0A, 0x0D, 0x09]⟩ (by decide) (by decide) (by decide)
  (by decide) 0x080C101 0x20 0x7F (by decide) (by decide) (by decide) (by decide)
example := C100_silent aDevice ⟨0x7E0000, [0x7F, 0x0D, 0x7F, 1, 1, 2, 3, 4, 0x67, 0x0A, 0x0D, 0x09]⟩ (by decide) (by decide)
  (.inr ⟨0x7F, by decide, by decide⟩)
example := C100_valid_answered aDevice aDevice_proper ⟨0x7E0000, [0x7F, 0x0D, 0x20, 2, 1, 2, 3]⟩ (by decide)
example := C100_no_answer_to_answer aDevice aDevice aDevice_proper aDevice_proper
  ⟨0x7E0000, [0x7F, 0x0D, 0x20, 2, 1, 2, 3, 4, 0x67, 0x0A, 0x0D, 0x09]⟩
  ⟨0x7E0000, [0x7F, 0x0D, 0x7F, 2, 0x67, 0x0A, 0x0D, 0x09, 1, 2, 3, 4, 0x20, 1, 0, 0, 0, 0, 0, 0, 0, 0]⟩ (by decide) (by decide +kernel)
example := C100_cable aDevice aDevice aDevice_proper aDevice_proper 3 5 (by decide) (by decide) [.feed [0xF0, 0x7E, 1], .reset]
  (by intro g hg; simp at hg) (Parser.new 0 true true)

end Midi
