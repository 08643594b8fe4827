import Verif.Lemmas.RemakeCI
import Verif.Lemmas.Remake

/-!
# C90: property exchange, process inquiry and identity messages are made again from what is read from them

See Verif.Props.RemakeCI.
-/

namespace Midi
open Spec UniversalSysex CI

/-! ## Property exchange capabilities -/

theorem pe_again {st : Byte} {s : Sysex} (h : PropertyExchangeCapabilitiesView.validate s = .ok true)
    (h7 : ∀ b ∈ s.data, b.toNat < 128) (hst : UniversalSysex.View.subtype s = .ok st) :
    ∃ (v dev n : Byte) (src dst : Word) (rest : List Byte), U28 src ∧ U28 dst ∧ s = msg v st dev src dst ([n] ++ rest) ∧
      (2 ≤ v.toNat → 2 ≤ rest.length) ∧
      View.sourceMuid s = .ok src ∧ View.destinationMuid s = .ok dst ∧
      PropertyExchangeCapabilitiesView.maxRequests s = .ok n ∧ UniversalSysex.View.deviceId s = .ok dev := by
  obtain ⟨v, st', dev, src, dst, p, rfl, -, ⟨hp, hp2⟩, hv7, hdev, hs, hd, h7p⟩ :=
    ci_split ((C55_property_exchange_capabilities s).1 h) h7
  obtain ⟨a, rest, rfl, ha⟩ := cut 1 hp
  have : st' = st := by
    have e : UniversalSysex.View.subtype (msg v st' dev src dst (a ++ rest)) = .ok st' := by
      unfold UniversalSysex.View.subtype; rw [if_pos (by rw [msg_length]; omega)]; rfl
    rw [e] at hst; injection hst
  subst this
  match a, ha with
  | [n], _ =>
    exact ⟨v, dev, n, src, dst, rest, hs, hd, rfl, fun h => by have := hp2 h; simp at this; omega, (reads hs hd).1,
      (reads hs hd).2.1, rfl, rfl⟩

theorem pe_make {st dev n : Byte} {src dst : Word} : makePeCapabilities st src dst n dev =
    .ok (msg 2 st dev src dst [n, 0, 0]) := by
  unfold makePeCapabilities
  rw [makeWithPayload_eq, ok_bind, msg_addData _ (by simp), List.nil_append]

theorem pe_same {v st dev n : Byte} {src dst : Word} {rest : List Byte} (h : 2 ≤ rest.length) :
    SameBut 15 [(3, 2), (13, 0), (14, 0)] (msg v st dev src dst ([n] ++ rest)) (msg 2 st dev src dst [n, 0, 0]) := by
  match rest, h with
  | x :: y :: r, _ =>
    rw [show [n] ++ x :: y :: r = [n, x, y] ++ r from rfl]
    refine sameBut_msg rfl rfl ?_ ?_
    · intro i hi; interval_cases i <;> rfl
    · intro j hj
      have : j < 3 := hj
      interval_cases j <;> rfl

/-- C90: `make_property_exchange_capabilities_inquiry`: the version of property exchange is not an argument of the
factory. -/
theorem C90_property_exchange_capabilities_inquiry (s : Sysex) (h : PropertyExchangeCapabilitiesView.validate s = .ok true)
    (h7 : ∀ b ∈ s.data, b.toNat < 128) (hst : UniversalSysex.View.subtype s = .ok 0x30)
    (hv : ∃ v, View.messageVersion s = .ok v ∧ 2 ≤ v.toNat) :
    ∃ m, (do
        makePeCapabilitiesInquiry (← View.sourceMuid s) (← View.destinationMuid s)
          (← PropertyExchangeCapabilitiesView.maxRequests s) (← UniversalSysex.View.deviceId s)) = .ok m ∧
      SameBut 15 [(3, 2), (13, 0), (14, 0)] s m := by
  obtain ⟨v, dev, n, src, dst, rest, hs, hd, e, hr, h1, h2, h3, h4⟩ := pe_again h h7 hst
  obtain ⟨v', hv', hge⟩ := hv
  have : v = v' := by rw [e] at hv'; injection hv'
  subst this
  refine ⟨msg 2 0x30 dev src dst [n, 0, 0], ?_, by rw [e]; exact pe_same (hr hge)⟩
  rw [h1, ok_bind, h2, ok_bind, h3, ok_bind, h4, ok_bind]
  exact pe_make

/-- C90: `make_property_exchange_capabilities_reply`. -/
theorem C90_property_exchange_capabilities_reply (s : Sysex) (h : PropertyExchangeCapabilitiesView.validate s = .ok true)
    (h7 : ∀ b ∈ s.data, b.toNat < 128) (hst : UniversalSysex.View.subtype s = .ok 0x31)
    (hv : ∃ v, View.messageVersion s = .ok v ∧ 2 ≤ v.toNat) :
    ∃ m, (do
        makePeCapabilitiesReply (← View.sourceMuid s) (← View.destinationMuid s)
          (← PropertyExchangeCapabilitiesView.maxRequests s) (← UniversalSysex.View.deviceId s)) = .ok m ∧
      SameBut 15 [(3, 2), (13, 0), (14, 0)] s m := by
  obtain ⟨v, dev, n, src, dst, rest, hs, hd, e, hr, h1, h2, h3, h4⟩ := pe_again h h7 hst
  obtain ⟨v', hv', hge⟩ := hv
  have : v = v' := by rw [e] at hv'; injection hv'
  subst this
  refine ⟨msg 2 0x31 dev src dst [n, 0, 0], ?_, by rw [e]; exact pe_same (hr hge)⟩
  rw [h1, ok_bind, h2, ok_bind, h3, ok_bind, h4, ok_bind]
  exact pe_make

/-! ## Property exchange data -/

/-- What is read from a property exchange message. -/
theorem property_again {s : Sysex} (h : PropertyDataView.validate s = .ok true) (h7 : ∀ b ∈ s.data, b.toNat < 128) :
    ∃ (v st dev id : Byte) (src dst : Word) (header chunk rest : List Byte) (num this : U16), U28 src ∧ U28 dst ∧ U7 id ∧
      U14 num ∧ U14 this ∧ header.length < 2 ^ 14 ∧ chunk.length < 2 ^ 14 ∧ Spec.Seven header ∧ Spec.Seven chunk ∧
      (num = 0 ∨ this.toNat ≤ num.toNat) ∧ (chunk = [] ∨ 1 ≤ this.toNat) ∧
      st ∈ ([0x34, 0x35, 0x36, 0x37, 0x38, 0x39, 0x3F] : List Byte) ∧
      s = msg v st dev src dst ([id] ++ (le7 2 header.length ++ (header ++ (le7 2 num.toNat ++ (le7 2 this.toNat ++
        (le7 2 chunk.length ++ chunk))))) ++ rest) ∧
      UniversalSysex.View.subtype s = .ok st ∧
      View.sourceMuid s = .ok src ∧ View.destinationMuid s = .ok dst ∧ UniversalSysex.View.deviceId s = .ok dev ∧
      PropertyDataView.requestId s = .ok id ∧ PropertyDataView.header s = .ok header ∧
      PropertyDataView.numberOfChunks s = .ok num ∧ PropertyDataView.numberOfThisChunk s = .ok this ∧
      PropertyDataView.chunk s = .ok chunk ∧ PropertyDataView.headerSize s = .ok header.length ∧
      PropertyDataView.chunkSize s = .ok chunk.length := by
  obtain ⟨v, st, dev, src, dst, p, rfl, hst, ⟨id, H, num, this, C, rest, rfl, hH, hnum, hthis, hC, c1, c2, c3⟩, hv7, hdev, hs, hd,
    h7p⟩ := ci_split ((C55_property_data s h7).1 h) h7
  have en : (BitVec.ofNat 16 num).toNat = num := by rw [BitVec.toNat_ofNat]; omega
  have et : (BitVec.ofNat 16 this).toNat = this := by rw [BitVec.toNat_ofNat]; omega
  have eH : (BitVec.ofNat 16 H.length).toNat = H.length := by rw [BitVec.toNat_ofNat]; omega
  have eC : (BitVec.ofNat 16 C.length).toNat = C.length := by rw [BitVec.toNat_ofNat]; omega
  have a1 := seven_left h7p
  have sC := seven_right a1
  have sH := seven_right (seven_left (seven_left (seven_left (seven_left a1))))
  generalize hM : msg v st dev src dst ([id] ++ le7 2 H.length ++ H ++ le7 2 num ++ le7 2 this ++ le7 2 C.length ++ C ++ rest) = M
  have dr13 : M.data.drop 13 = le7 2 H.length ++ (H ++ (le7 2 num ++ (le7 2 this ++ (le7 2 C.length ++ (C ++ rest))))) := by
    rw [← hM]; simp only [List.append_assoc]; rfl
  have dr15 : M.data.drop 15 = H ++ (le7 2 num ++ (le7 2 this ++ (le7 2 C.length ++ (C ++ rest)))) := by
    rw [← hM]; simp only [List.append_assoc]; rfl
  have drH : M.data.drop (15 + H.length) = le7 2 num ++ (le7 2 this ++ (le7 2 C.length ++ (C ++ rest))) := by
    rw [← List.drop_drop, dr15, List.drop_append, List.drop_eq_nil_of_le (Nat.le_refl _)]
    simp
  have hl : M.data.length = 21 + H.length + C.length + rest.length := by
    rw [← hM, msg_length]
    simp only [List.length_append, le7_length, List.length_cons, List.length_nil]
    omega
  have m13 : M.makeUint14 13 = .ok (BitVec.ofNat 16 H.length) := read14_ofNat hH dr13
  have m15 : M.makeUint14 (15 + H.length) = .ok (BitVec.ofNat 16 num) := read14_ofNat hnum drH
  have m17 : M.makeUint14 (17 + H.length) = .ok (BitVec.ofNat 16 this) := by
    refine read14_ofNat hthis (c := le7 2 C.length ++ (C ++ rest)) ?_
    rw [show 17 + H.length = 15 + H.length + 2 by omega, ← List.drop_drop, drH]; rfl
  have m19 : M.makeUint14 (19 + H.length) = .ok (BitVec.ofNat 16 C.length) := by
    refine read14_ofNat hC (c := C ++ rest) ?_
    rw [show 19 + H.length = 15 + H.length + 4 by omega, ← List.drop_drop, drH]; rfl
  have hsz : PropertyDataView.headerSize M = .ok H.length := by
    unfold PropertyDataView.headerSize; rw [m13, ok_bind, eH]; rfl
  have csz : PropertyDataView.chunkSize M = .ok C.length := by
    unfold PropertyDataView.chunkSize; rw [hsz, ok_bind, m19, ok_bind, eC]; rfl
  refine ⟨v, st, dev, id, src, dst, H, C, rest, BitVec.ofNat 16 num, BitVec.ofNat 16 this, hs, hd, h7p id (by simp), ?_, ?_, hH, hC, sH, sC, ?_, ?_, hst,
    ?_, ?_, ?_, ?_, ?_, ?_, ?_, ?_, ?_, ?_, hsz, csz⟩
  · rw [U14, en]; exact hnum
  · rw [U14, et]; exact hthis
  · rw [en, et]
    rcases c1 with h | h
    · exact Or.inl (by rw [h]; rfl)
    · exact Or.inr h
  · rw [et]; exact c3
  · rw [← hM, en, et]; simp only [List.append_assoc]
  · unfold UniversalSysex.View.subtype; rw [if_pos (by omega), ← hM]; rfl
  · rw [← hM]; exact (reads hs hd).1
  · rw [← hM]; exact (reads hs hd).2.1
  · rw [← hM]; rfl
  · rw [← hM]; rfl
  · unfold PropertyDataView.header
    rw [hsz, ok_bind]
    exact readSlice (by omega) dr15 rfl
  · unfold PropertyDataView.numberOfChunks; rw [hsz, ok_bind, m15]
  · unfold PropertyDataView.numberOfThisChunk; rw [hsz, ok_bind, m17]
  · unfold PropertyDataView.chunk
    rw [hsz, ok_bind, csz, ok_bind]
    refine readSlice (c := rest) (by omega) ?_ rfl
    rw [show 21 + H.length = 15 + H.length + 6 by omega, ← List.drop_drop, drH]; rfl

/-- C90: `make_property_data_message`, for a message with a chunk number, with pointers into the message as arguments. -/
theorem C90_property_data_partial (s : Sysex) (h : PropertyDataView.validate s = .ok true) (h7 : ∀ b ∈ s.data, b.toNat < 128)
    (hthis : PropertyDataView.numberOfThisChunk s ≠ .ok 0) :
    ∃ m n k, (do
        makePropertyData (← UniversalSysex.View.subtype s) (← View.sourceMuid s) (← View.destinationMuid s)
          ⟨false, ← PropertyDataView.header s⟩ (← PropertyDataView.numberOfChunks s)
          (← PropertyDataView.numberOfThisChunk s) ⟨false, ← PropertyDataView.chunk s⟩
          (← PropertyDataView.requestId s) (← UniversalSysex.View.deviceId s)) = .ok m ∧
      PropertyDataView.headerSize s = .ok n ∧ PropertyDataView.chunkSize s = .ok k ∧
      SameBut (21 + n + k) [(3, 2)] s m := by
  obtain ⟨v, st, dev, id, src, dst, H, C, rest, num, this, hs, hd, hid, hnum, hth, hH, hC, sH, sC, c1, c3, hst, e, r1, r2, r3, r4, r5,
    r6, r7, r8, r9, r10, r11⟩ := property_again h h7
  refine ⟨propertyMsg st dev src dst id H num this C, _, _, ?_, r10, r11, ?_⟩
  · rw [r1, ok_bind, r2, ok_bind, r3, ok_bind, r6, ok_bind, r7, ok_bind, r8, ok_bind, r9, ok_bind, r5, ok_bind, r4, ok_bind]
    refine makePropertyData_eq (header := ⟨false, H⟩) (chunk := ⟨false, C⟩) hid
      ⟨(by intro h; cases h), sH, (by show H.length ≤ 16383; omega)⟩
      ⟨hnum, hth, c1, ?_, (by intro h; cases h), sC, (by show C.length ≤ 16383; omega)⟩
    intro h0
    rw [h0] at r8
    exact absurd r8 hthis
  · rw [e]
    refine same_header ?_ (by decide) header2
    simp only [List.length_append, le7_length, List.length_cons, List.length_nil]; omega

/-- C90: without a chunk number there is no data either, and the factory wants a null pointer for it. -/
theorem C90_property_data_no_chunk (s : Sysex) (h : PropertyDataView.validate s = .ok true) (h7 : ∀ b ∈ s.data, b.toNat < 128)
    (hthis : PropertyDataView.numberOfThisChunk s = .ok 0) :
    PropertyDataView.chunk s = .ok [] ∧
    (∃ m n, (do
        makePropertyData (← UniversalSysex.View.subtype s) (← View.sourceMuid s) (← View.destinationMuid s)
          ⟨false, ← PropertyDataView.header s⟩ (← PropertyDataView.numberOfChunks s) 0 ⟨true, []⟩
          (← PropertyDataView.requestId s) (← UniversalSysex.View.deviceId s)) = .ok m ∧
      PropertyDataView.headerSize s = .ok n ∧ SameBut (21 + n) [(3, 2)] s m) ∧
    (do
        makePropertyData (← UniversalSysex.View.subtype s) (← View.sourceMuid s) (← View.destinationMuid s)
          ⟨false, ← PropertyDataView.header s⟩ (← PropertyDataView.numberOfChunks s)
          (← PropertyDataView.numberOfThisChunk s) ⟨false, ← PropertyDataView.chunk s⟩
          (← PropertyDataView.requestId s) (← UniversalSysex.View.deviceId s)) = .error .assertFailed := by
  obtain ⟨v, st, dev, id, src, dst, H, C, rest, num, this, hs, hd, hid, hnum, hth, hH, hC, sH, sC, c1, c3, hst, e, r1, r2, r3, r4, r5,
    r6, r7, r8, r9, r10, r11⟩ := property_again h h7
  rw [r8] at hthis
  injection hthis with h0
  subst h0
  have hC0 : C = [] := by
    rcases c3 with h | h
    · exact h
    · exact absurd h (by decide)
  subst hC0
  refine ⟨r9, ⟨propertyMsg st dev src dst id H num 0 [], _, ?_, r10, ?_⟩, ?_⟩
  · rw [r1, ok_bind, r2, ok_bind, r3, ok_bind, r6, ok_bind, r7, ok_bind, r5, ok_bind, r4, ok_bind]
    exact makePropertyData_eq (header := ⟨false, H⟩) (chunk := ⟨true, []⟩) hid
      ⟨(by intro h; cases h), sH, (by show H.length ≤ 16383; omega)⟩
      ⟨hnum, hth, c1, fun _ => ⟨rfl, rfl⟩, fun _ => rfl, sC, by show 0 ≤ 16383; omega⟩
  · rw [e]
    refine same_header ?_ (by decide) header2
    simp only [List.length_append, le7_length, List.length_cons, List.length_nil]; omega
  · rw [r1, ok_bind, r2, ok_bind, r3, ok_bind, r6, ok_bind, r7, ok_bind, r8, ok_bind, r9, ok_bind, r5, ok_bind, r4, ok_bind]
    unfold makePropertyData
    rw [makeWithPayload_eq, ok_bind]
    rfl

/-- There are such messages: a subscription that is ended, without chunks. -/
example : PropertyDataView.validate ⟨0x7E0000, [0x7F, 0x0D, 0x38, 2, 1, 0, 0, 0, 2, 0, 0, 0, 5, 2, 0, 0x7B, 0x7D, 0, 0, 0, 0, 0, 0]⟩
    = .ok true := by rfl

/-! ## Process inquiry -/

/-- C90: `make_process_inquiry_capabilities_reply`. -/
theorem C90_process_inquiry_capabilities_reply (s : Sysex) (h : ProcessInquiryCapabilitiesReplyView.validate s = .ok true)
    (h7 : ∀ b ∈ s.data, b.toNat < 128) :
    ∃ m, (do
        makeProcessInquiryCapabilitiesReply (← View.sourceMuid s) (← View.destinationMuid s)
          (← ProcessInquiryCapabilitiesReplyView.supportedFeatures s) (← UniversalSysex.View.deviceId s)) = .ok m ∧
      SameBut 13 [(3, 2)] s m := by
  obtain ⟨v, st, dev, src, dst, p, rfl, hst, hp, hv7, hdev, hs, hd, h7p⟩ :=
    ci_split ((C55_process_inquiry_capabilities_reply s).1 h) h7
  rw [List.mem_singleton] at hst
  subst hst
  obtain ⟨a, rest, rfl, ha⟩ := cut 1 hp
  match a, ha with
  | [f], _ =>
    refine ⟨msg 2 0x41 dev src dst [f], ?_, same_header rfl (by decide) header2⟩
    rw [(reads hs hd).1, ok_bind, (reads hs hd).2.1, ok_bind,
      show ProcessInquiryCapabilitiesReplyView.supportedFeatures _ = .ok f from rfl, ok_bind, (reads hs hd).2.2, ok_bind]
    unfold makeProcessInquiryCapabilitiesReply
    rw [makeWithPayload_eq, ok_bind, msg_addData _ (by simp), List.nil_append]

/-- C90: `make_midi_message_report_inquiry`: the reserved byte becomes zero. -/
theorem C90_midi_message_report_inquiry (s : Sysex) (h : MidiMessageReportInquiryView.validate s = .ok true)
    (h7 : ∀ b ∈ s.data, b.toNat < 128) :
    ∃ m, (do
        makeMidiMessageReportInquiry (← View.sourceMuid s) (← View.destinationMuid s)
          (← MidiMessageReportInquiryView.messageDataControl s) (← MidiMessageReportInquiryView.systemMessageTypes s)
          (← MidiMessageReportInquiryView.channelControllerMessageTypes s)
          (← MidiMessageReportInquiryView.noteDataMessageTypes s) (← UniversalSysex.View.deviceId s)) = .ok m ∧
      SameBut 17 [(3, 2), (14, 0)] s m := by
  obtain ⟨v, st, dev, src, dst, p, rfl, hst, hp, hv7, hdev, hs, hd, h7p⟩ :=
    ci_split ((C55_midi_message_report_inquiry s).1 h) h7
  rw [List.mem_singleton] at hst
  subst hst
  obtain ⟨a, rest, rfl, ha⟩ := cut 5 hp
  match a, ha with
  | [c, sy, x, ch, no], _ =>
    refine ⟨msg 2 0x42 dev src dst [c, sy, 0, ch, no], ?_, ?_⟩
    · rw [(reads hs hd).1, ok_bind, (reads hs hd).2.1, ok_bind,
        show MidiMessageReportInquiryView.messageDataControl _ = .ok c from rfl, ok_bind,
        show MidiMessageReportInquiryView.systemMessageTypes _ = .ok sy from rfl, ok_bind,
        show MidiMessageReportInquiryView.channelControllerMessageTypes _ = .ok ch from rfl, ok_bind,
        show MidiMessageReportInquiryView.noteDataMessageTypes _ = .ok no from rfl, ok_bind, (reads hs hd).2.2, ok_bind]
      unfold makeMidiMessageReportInquiry
      rw [makeWithPayload_eq, ok_bind, msg_addData _ (by simp), List.nil_append]
    · refine sameBut_msg rfl rfl ?_ ?_
      · intro i hi; interval_cases i <;> rfl
      · intro j hj
        have : j < 5 := hj
        interval_cases j <;> rfl

/-- C90: `make_midi_message_report_reply`: the destination becomes the broadcast MUID, the reserved byte zero. -/
theorem C90_midi_message_report_reply (s : Sysex) (h : MidiMessageReportReplyView.validate s = .ok true)
    (h7 : ∀ b ∈ s.data, b.toNat < 128) :
    ∃ m, (do
        makeMidiMessageReportReply (← View.sourceMuid s) (← MidiMessageReportReplyView.systemMessageTypes s)
          (← MidiMessageReportReplyView.channelControllerMessageTypes s)
          (← MidiMessageReportReplyView.noteDataMessageTypes s) (← UniversalSysex.View.deviceId s)) = .ok m ∧
      SameBut 16 [(3, 2), (8, 0x7F), (9, 0x7F), (10, 0x7F), (11, 0x7F), (13, 0)] s m := by
  obtain ⟨v, st, dev, src, dst, p, rfl, hst, hp, hv7, hdev, hs, hd, h7p⟩ :=
    ci_split ((C55_midi_message_report_reply s).1 h) h7
  rw [List.mem_singleton] at hst
  subst hst
  obtain ⟨a, rest, rfl, ha⟩ := cut 4 hp
  match a, ha with
  | [sy, x, ch, no], _ =>
    refine ⟨msg 2 0x43 dev src broadcastMuid [sy, 0, ch, no], ?_, ?_⟩
    · rw [(reads hs hd).1, ok_bind, 
        show MidiMessageReportReplyView.systemMessageTypes _ = .ok sy from rfl, ok_bind,
        show MidiMessageReportReplyView.channelControllerMessageTypes _ = .ok ch from rfl, ok_bind,
        show MidiMessageReportReplyView.noteDataMessageTypes _ = .ok no from rfl, ok_bind, (reads hs hd).2.2, ok_bind]
      unfold makeMidiMessageReportReply
      rw [makeWithPayload_eq, ok_bind, msg_addData _ (by simp), List.nil_append]
    · refine sameBut_msg rfl rfl ?_ ?_
      · intro i hi; interval_cases i <;> rfl
      · intro j hj
        have : j < 4 := hj
        interval_cases j <;> rfl

/-- Messages of each type the theorems about capabilities are about. -/
example :
    (let s : Sysex := ⟨0x7E0000, [0x10, 0x0D, 0x30, 2, 1, 2, 3, 4, 5, 6, 7, 8, 4, 1, 1]⟩
     PropertyExchangeCapabilitiesView.validate s = .ok true ∧ (∀ b ∈ s.data, b.toNat < 128) ∧ UniversalSysex.View.subtype s = .ok 0x30) ∧
    (let s : Sysex := ⟨0x7E0000, [0x10, 0x0D, 0x31, 2, 1, 2, 3, 4, 5, 6, 7, 8, 4, 1, 1]⟩
     PropertyExchangeCapabilitiesView.validate s = .ok true ∧ (∀ b ∈ s.data, b.toNat < 128) ∧ UniversalSysex.View.subtype s = .ok 0x31) := by
  refine ⟨?_, ?_⟩
  all_goals exact ⟨by rfl, by decide, by rfl⟩

/-- A chunk of property data with data after it. -/
example :
    (let s : Sysex := ⟨0x7E0000, [0x10, 0x0D, 0x35, 2, 1, 2, 3, 4, 5, 6, 7, 8, 9, 2, 0, 0x7B, 0x7D, 2, 0, 1, 0, 3, 0, 1, 2, 3, 4]⟩
     PropertyDataView.validate s = .ok true ∧ (∀ b ∈ s.data, b.toNat < 128) ∧ PropertyDataView.numberOfThisChunk s = .ok 1) := by
  exact ⟨by rfl, by decide, by rfl⟩

/-- A property data message without chunk. -/
example :
    (let s : Sysex := ⟨0x7E0000, [0x10, 0x0D, 0x35, 2, 1, 2, 3, 4, 5, 6, 7, 8, 9, 2, 0, 0x7B, 0x7D, 2, 0, 0, 0, 0, 0]⟩
     PropertyDataView.validate s = .ok true ∧ (∀ b ∈ s.data, b.toNat < 128) ∧ PropertyDataView.numberOfThisChunk s = .ok 0) := by
  exact ⟨by rfl, by decide, by rfl⟩

/-- Messages of the kinds the theorems about process inquiry are about. -/
example :
    (let s : Sysex := ⟨0x7E0000, [0x10, 0x0D, 0x41, 2, 1, 2, 3, 4, 5, 6, 7, 8, 1]⟩
     ProcessInquiryCapabilitiesReplyView.validate s = .ok true ∧ (∀ b ∈ s.data, b.toNat < 128)) ∧
    (let s : Sysex := ⟨0x7E0000, [0x10, 0x0D, 0x42, 2, 1, 2, 3, 4, 5, 6, 7, 8, 1, 7, 0, 0x3F, 3]⟩
     MidiMessageReportInquiryView.validate s = .ok true ∧ (∀ b ∈ s.data, b.toNat < 128)) ∧
    (let s : Sysex := ⟨0x7E0000, [0x10, 0x0D, 0x43, 2, 1, 2, 3, 4, 5, 6, 7, 8, 7, 1, 0x3F, 3, 5]⟩
     MidiMessageReportReplyView.validate s = .ok true ∧ (∀ b ∈ s.data, b.toNat < 128)) := by
  refine ⟨?_, ?_, ?_⟩
  all_goals exact ⟨by rfl, by decide⟩

/-! ## Identity -/

/-- C90: `make_identity_request`. -/
theorem C90_identity_request (s : Sysex) (h : isIdentityRequest s = .ok true) :
    ∃ d, deviceIdOf s = .ok d ∧ SameBut 3 [] s (makeIdentityRequest d) := by
  obtain ⟨hm, dev, rest, hd⟩ := (C55_identity_request s).1 h
  refine ⟨dev, ?_, by rw [hm]; rfl, rfl, by rw [hd]; simp, ?_⟩
  · unfold deviceIdOf isUniversal
    rw [hm, hd]; rfl
  · intro i hi
    rw [hd]
    interval_cases i <;> rfl

theorem id3 (x y : Byte) (hx : x.toNat < 128) (hy : y.toNat < 128) :
    (x.setWidth 32 <<< 8 ||| y.setWidth 32 : Word) < 0x10000 ∧
    (((x.setWidth 32 <<< 8 ||| y.setWidth 32 : Word) >>> 8) &&& 0x7F).setWidth 8 = x ∧
    ((x.setWidth 32 <<< 8 ||| y.setWidth 32 : Word) &&& 0x7F).setWidth 8 = y := by
  refine ⟨?_, ?_, ?_⟩
  · have e : (x.setWidth 32 <<< 8 ||| y.setWidth 32 : Word) = (x.setWidth 16 <<< 8 ||| y.setWidth 16 : BitVec 16).setWidth 32 := by bits
    rw [e, BitVec.lt_def, BitVec.toNat_setWidth]
    have := (x.setWidth 16 <<< 8 ||| y.setWidth 16 : BitVec 16).isLt
    show _ < 65536
    omega
  · rw [eq_and7F.2 (show x < 128 from BitVec.lt_def.2 hx)]; bits
  · rw [eq_and7F.2 (show y < 128 from BitVec.lt_def.2 hy)]; bits

theorem id1 (b : Byte) (hb : b.toNat < 128) (h0 : b ≠ 0) :
    ¬ (b.setWidth 32 <<< 16 : Word) < 0x10000 ∧ (((b.setWidth 32 <<< 16 : Word) >>> 16) &&& 0x7F).setWidth 8 = b := by
  refine ⟨?_, ?_⟩
  · have : b.toNat ≠ 0 := fun h => h0 (BitVec.eq_of_toNat_eq h)
    rw [BitVec.lt_def, BitVec.toNat_shiftLeft, BitVec.toNat_setWidth, Nat.shiftLeft_eq]
    show ¬ _ < 65536
    omega
  · rw [eq_and7F.2 (show b < 128 from BitVec.lt_def.2 hb)]; bits

/-- C90: `identity_reply` made from `identity()` and the device id. The view also accepts two bytes more than there are
in the reply of a manufacturer with an id of one byte. -/
theorem C90_identity_reply (s : Sysex) (h : IdentityReplyView.validate s = .ok true) (h7 : ∀ b ∈ s.data, b.toNat < 128) :
    ∃ m i, IdentityReplyView.identity s = .ok i ∧ (do
        makeIdentityReply i.manufacturer i.family i.model i.revision (← UniversalSysex.View.deviceId s)) = .ok m ∧
      SameBut (if s.data[3]? = some 0 then 14 else 12) [] s m := by
  obtain ⟨hm, dev, b, rest, hd, hb⟩ := (C55_identity_reply s).1 h
  obtain ⟨id, data⟩ := s
  simp only at hm hd h7
  subst hm hd
  have s0 := seven_right h7
  by_cases h0 : b = 0
  · subst h0
    have hl : rest.length = 10 := by
      rcases hb with ⟨hb, -⟩ | hb
      · exact absurd rfl hb
      · exact hb
    obtain ⟨a, r, rfl, ha⟩ := cut 2 (l := rest) (by omega)
    obtain ⟨f, r, rfl, hf⟩ := cut 2 (l := r) (by simp at hl; omega)
    obtain ⟨mo, r, rfl, hmo⟩ := cut 2 (l := r) (by simp at hl; omega)
    have hr : r.length = 4 := by simp at hl; omega
    obtain ⟨family, h1, rfl⟩ := digits14 f (seven_left (seven_right s0)) hf
    obtain ⟨model, h2, rfl⟩ := digits14 mo (seven_left (seven_right (seven_right s0))) hmo
    obtain ⟨revision, h3, rfl⟩ := digits28 r (seven_right (seven_right (seven_right s0))) hr
    match a, ha with
    | [x, y], _ =>
      refine ⟨⟨0x7E0000, [dev, 0x06, 0x02, 0] ++ ([x, y] ++ (le7 2 family.toNat ++ (le7 2 model.toNat ++ le7 4 revision.toNat)))⟩,
        ⟨x.setWidth 32 <<< 8 ||| y.setWidth 32, family, model, revision⟩, ?_, ?_, ?_⟩
      · unfold IdentityReplyView.identity
        rw [show index _ 3 = .ok 0 from rfl, ok_bind, if_neg (by simp), show index _ 4 = .ok x from rfl, ok_bind,
          show index _ 5 = .ok y from rfl, ok_bind,
          read14 (v := family) (c := le7 2 model.toNat ++ le7 4 revision.toNat) h1 rfl, ok_bind,
          read14 (v := model) (c := le7 4 revision.toNat) h2 rfl, ok_bind,
          read28 (v := revision) (c := []) h3 (by rw [List.append_nil]; rfl), ok_bind]
        rfl
      · obtain ⟨k1, k2, k3⟩ := id3 x y (s0 x (by simp)) (s0 y (by simp))
        rw [show UniversalSysex.View.deviceId _ = .ok dev from rfl, ok_bind]
        unfold makeIdentityReply
        dsimp only
        rw [if_pos k1, k2, k3, addUint14_le7 _ _ h1, ok_bind, addUint14_le7 _ _ h2, ok_bind, addUint28_le7 _ _ h3]
        simp only [List.append_assoc]
        rfl
      · rw [if_pos (by rfl)]
        exact ⟨rfl, rfl, Nat.le_refl _, fun _ _ => rfl⟩
  · have hl : 8 ≤ rest.length := by rcases hb with ⟨-, hb⟩ | hb <;> omega
    obtain ⟨f, r, rfl, hf⟩ := cut 2 (l := rest) (by omega)
    obtain ⟨mo, r, rfl, hmo⟩ := cut 2 (l := r) (by simp at hl; omega)
    obtain ⟨re, r, rfl, hre⟩ := cut 4 (l := r) (by simp at hl; omega)
    obtain ⟨family, h1, rfl⟩ := digits14 f (seven_left s0) hf
    obtain ⟨model, h2, rfl⟩ := digits14 mo (seven_left (seven_right s0)) hmo
    obtain ⟨revision, h3, rfl⟩ := digits28 re (seven_left (seven_right (seven_right s0))) hre
    refine ⟨⟨0x7E0000, [dev, 0x06, 0x02, b] ++ (le7 2 family.toNat ++ (le7 2 model.toNat ++ le7 4 revision.toNat))⟩,
      ⟨b.setWidth 32 <<< 16, family, model, revision⟩, ?_, ?_, ?_⟩
    · unfold IdentityReplyView.identity
      rw [show index _ 3 = .ok b from rfl, ok_bind, if_pos h0,
        read14 (v := family) (c := le7 2 model.toNat ++ (le7 4 revision.toNat ++ r)) h1 rfl, ok_bind,
        read14 (v := model) (c := le7 4 revision.toNat ++ r) h2 rfl, ok_bind,
        read28 (v := revision) (c := r) h3 rfl, ok_bind]
      rfl
    · obtain ⟨k1, k2⟩ := id1 b (h7 b (by simp)) h0
      rw [show UniversalSysex.View.deviceId _ = .ok dev from rfl, ok_bind]
      unfold makeIdentityReply
      dsimp only
      rw [if_neg k1, k2, addUint14_le7 _ _ h1, ok_bind, addUint14_le7 _ _ h2, ok_bind, addUint28_le7 _ _ h3]
      simp only [List.append_assoc]
      rfl
    · rw [if_neg (by intro h; injection h with h; exact h0 h)]
      refine ⟨rfl, rfl, by simp [le7_length]; omega, ?_⟩
      intro i hi
      interval_cases i <;> rfl

/-- Identity replies with an id of three bytes and of one byte, and one of one byte with two bytes more. -/
example : ∀ d ∈ [[0x10, 6, 2, 0, 0x21, 9, 1, 0, 2, 0, 3, 0, 0, 0], [0x10, 6, 2, 0x43, 1, 0, 2, 0, 3, 0, 0, 0],
      ([0x10, 6, 2, 0x43, 1, 0, 2, 0, 3, 0, 0, 0, 5, 6] : List Byte)],
    IdentityReplyView.validate ⟨0x7E0000, d⟩ = .ok true ∧ ∀ b ∈ d, b.toNat < 128 := by decide

example : isIdentityRequest (makeIdentityRequest 0x10) = .ok true := by rfl

end Midi
