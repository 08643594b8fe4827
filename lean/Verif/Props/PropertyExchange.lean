import Verif.Props.CIPayload

/-!
# C42: property exchange messages
-/

namespace Midi.Spec
open CI

/-- The view class for the property exchange messages of a subtype. -/
def propertyView : Byte → String
  | 0x34 => "get_property_data_view"
  | 0x35 => "get_property_data_view"
  | 0x36 => "set_property_data_view"
  | 0x37 => "set_property_data_view"
  | 0x38 => "subscription_view"
  | 0x39 => "subscription_view"
  | 0x3F => "notify_view"
  | _ => "none"

/-- `m` is the property exchange message with the given contents: it has the right bytes, exactly the views for it
accept it, and they return the contents. -/
def IsPropertyMessage (m : Sysex) (subtype deviceId : Byte) (source dest : Word) (requestId : Byte) (header : List Byte)
    (numChunks thisChunk : U16) (chunk : List Byte) : Prop :=
  IsMessage m 2 subtype deviceId source dest
    ([requestId] ++ (le7 2 header.length ++ (header ++ (le7 2 numChunks.toNat ++ (le7 2 thisChunk.toNat ++
      (le7 2 chunk.length ++ chunk)))))) ["property_data_message_view", propertyView subtype] ∧
  PropertyDataView.requestId m = .ok requestId ∧ PropertyDataView.headerSize m = .ok header.length ∧
  PropertyDataView.header m = .ok header ∧ PropertyDataView.numberOfChunks m = .ok numChunks ∧
  PropertyDataView.numberOfThisChunk m = .ok thisChunk ∧ PropertyDataView.chunkSize m = .ok chunk.length ∧
  PropertyDataView.chunk m = .ok chunk

/-- The chunk arguments make sense: chunk numbers count from one up to the number of chunks, if that is known (not 0);
chunk number 0 only without data; the data is 7 bit and its size fits into 14 bit. -/
def ChunkOk (numChunks thisChunk : U16) (chunk : DataView) : Prop :=
  U14 numChunks ∧ U14 thisChunk ∧ (numChunks = 0 ∨ thisChunk.toNat ≤ numChunks.toNat) ∧
  (thisChunk = 0 → chunk.null = true ∧ chunk.bytes = []) ∧ (chunk.null = true → chunk.bytes = []) ∧
  Seven chunk.bytes ∧ chunk.bytes.length ≤ 16383

/-- A header in range. -/
def HeaderOk (header : DataView) : Prop :=
  (header.null = true → header.bytes = []) ∧ Seven header.bytes ∧ header.bytes.length ≤ 16383

instance (a b : U16) (c : DataView) : Decidable (ChunkOk a b c) := inferInstanceAs (Decidable (_ ∧ _))
instance (c : DataView) : Decidable (HeaderOk c) := inferInstanceAs (Decidable (_ ∧ _))

end Midi.Spec

namespace Midi
open Spec UniversalSysex CI

namespace CI

theorem property_views {st : Byte} (h : st ∈ ([0x34, 0x35, 0x36, 0x37, 0x38, 0x39, 0x3F] : List Byte)) :
    ∃ v : ViewClass, views.filter (fun v => decide (st ∈ v.subtypes)) =
      [⟨"property_data_message_view", PropertyDataView.validate, [0x34, 0x35, 0x36, 0x37, 0x38, 0x39, 0x3F]⟩, v] ∧
      v.name = propertyView st ∧
      ∀ s : Sysex, s.data[2]? = some st → PropertyDataView.validate s = .ok true → v.validate s = .ok true := by
  have one : ∀ {s : Sysex} {c : Byte}, s.data[2]? = some c → dataAt s 2 (· == c) = .ok true := by
    intro s c hs; rw [dataAt_true]; exact ⟨_, hs, by simp⟩
  have other : ∀ {s : Sysex} {b c : Byte}, s.data[2]? = some b → (b == c) = false → dataAt s 2 (· == c) = .ok false := by
    intro s b c hs hb
    unfold dataAt
    rw [index_iff.2 hs, ← hb]; rfl
  simp only [List.mem_cons, List.not_mem_nil, or_false] at h
  rcases h with rfl | rfl | rfl | rfl | rfl | rfl | rfl
  · refine ⟨⟨_, GetPropertyDataView.validate, _⟩, rfl, rfl, fun s h2 hs => ?_⟩
    exact andThen_true.2 ⟨hs, orElse_true.2 (Or.inl (one h2))⟩
  · refine ⟨⟨_, GetPropertyDataView.validate, _⟩, rfl, rfl, fun s h2 hs => ?_⟩
    exact andThen_true.2 ⟨hs, orElse_true.2 (Or.inr ⟨other h2 rfl, one h2⟩)⟩
  · refine ⟨⟨_, SetPropertyDataView.validate, _⟩, rfl, rfl, fun s h2 hs => ?_⟩
    exact andThen_true.2 ⟨hs, orElse_true.2 (Or.inl (one h2))⟩
  · refine ⟨⟨_, SetPropertyDataView.validate, _⟩, rfl, rfl, fun s h2 hs => ?_⟩
    exact andThen_true.2 ⟨hs, orElse_true.2 (Or.inr ⟨other h2 rfl, one h2⟩)⟩
  · refine ⟨⟨_, SubscriptionView.validate, _⟩, rfl, rfl, fun s h2 hs => ?_⟩
    exact andThen_true.2 ⟨hs, orElse_true.2 (Or.inl (one h2))⟩
  · refine ⟨⟨_, SubscriptionView.validate, _⟩, rfl, rfl, fun s h2 hs => ?_⟩
    exact andThen_true.2 ⟨hs, orElse_true.2 (Or.inr ⟨other h2 rfl, one h2⟩)⟩
  · refine ⟨⟨_, NotifyView.validate, _⟩, rfl, rfl, fun s h2 hs => ?_⟩
    exact andThen_true.2 ⟨hs, one h2⟩

/-- The message `makePropertyData` builds. -/
def propertyMsg (st dev : Byte) (src dst : Word) (req : Byte) (header : List Byte) (num this : U16) (chunk : List Byte) :
    Sysex :=
  msg 2 st dev src dst ([req] ++ (le7 2 header.length ++ (header ++ (le7 2 num.toNat ++ (le7 2 this.toNat ++
      (le7 2 chunk.length ++ chunk))))))

theorem makePropertyData_eq {st dev : Byte} {src dst : Word} {header : DataView} {num this : U16} {chunk : DataView}
    {req : Byte} (hreq : U7 req) (hh : HeaderOk header) (hc : ChunkOk num this chunk) :
    makePropertyData st src dst header num this chunk req dev =
      .ok (propertyMsg st dev src dst req header.bytes num this chunk.bytes) := by
  obtain ⟨hnull, -, hlen⟩ := hh
  obtain ⟨hn, ht, hnt, hz, hcn, -, hcl⟩ := hc
  have a1 : (this != 0 || (chunk.null && chunk.bytes.length == 0)) = true := by
    by_cases h : this = 0
    · simp [hz h]
    · rw [Bool.or_eq_true]; exact Or.inl (bne_iff_ne.2 h)
  have a2 : (num == 0 || decide (this ≤ num)) = true := by
    rcases hnt with h | h
    · simp [h]
    · simp only [Bool.or_eq_true, decide_eq_true_eq]; exact Or.inr h
  have a3 : ∀ x : DataView, (x.null = true → x.bytes = []) → (x.bytes.length == 0 || !x.null) = true := by
    intro x hx
    cases hn : x.null with
    | true => simp [hx hn]
    | false => simp
  unfold makePropertyData
  rw [makeWithPayload_eq, ok_bind, assert_ok a1, ok_bind, assert_ok a2, ok_bind, assert_ok (a3 _ hnull), ok_bind,
    assert_ok (a3 _ hcn), ok_bind, msg_add7 _ hreq, ok_bind, msg_add14n _ (by omega), ok_bind]
  have hstep : ∀ (r l : List Byte), (if l.length ≠ 0 then (msg 2 st dev src dst r).addData l else pure (msg 2 st dev src dst r))
      = .ok (msg 2 st dev src dst (r ++ l)) := by
    intro r l
    by_cases h : l.length = 0
    · rw [if_neg (by omega), List.length_eq_zero_iff.1 h, List.append_nil]; rfl
    · rw [if_pos h, msg_addData _ h]
  have hstep' : ∀ (r l : List Byte) (f : Sysex → Except Fault Sysex),
      (if l.length ≠ 0 then (msg 2 st dev src dst r).addData l >>= f else pure (msg 2 st dev src dst r) >>= f)
      = f (msg 2 st dev src dst (r ++ l)) := by
    intro r l f
    have := congrArg (fun x => x >>= f) (hstep r l)
    by_cases h : l.length = 0
    · rw [if_neg (by omega)] at this ⊢; exact this
    · rw [if_pos h] at this ⊢; exact this
  dsimp only
  rw [hstep', msg_add14 _ hn, ok_bind, msg_add14 _ ht, ok_bind, msg_add14n _ (by omega), ok_bind]
  rw [hstep]
  simp only [propertyMsg, List.nil_append, List.append_assoc]

/-- C42: `make_property_data_message`. -/
theorem C42_property_data (subtype : Byte) (source dest : Word) (header : DataView) (numChunks thisChunk : U16)
    (chunk : DataView) (requestId deviceId : Byte)
    (hst : subtype ∈ ([0x34, 0x35, 0x36, 0x37, 0x38, 0x39, 0x3F] : List Byte)) (hs : U28 source) (hd : U28 dest)
    (hreq : U7 requestId) (hdev : U7 deviceId) (hh : HeaderOk header) (hc : ChunkOk numChunks thisChunk chunk)
    (hfirst : header.bytes = [] ∨ thisChunk.toNat ≤ 1) :
    ∃ m, makePropertyData subtype source dest header numChunks thisChunk chunk requestId deviceId = .ok m ∧
      IsPropertyMessage m subtype deviceId source dest requestId header.bytes numChunks thisChunk chunk.bytes := by
  refine ⟨_, makePropertyData_eq hreq hh hc, ?_⟩
  obtain ⟨hnull, hh7, hlen⟩ := hh
  obtain ⟨hn, ht, hnt, hz, hcn, hc7, hcl⟩ := hc
  generalize header.bytes = H at *
  generalize chunk.bytes = C at *
  generalize hm : propertyMsg subtype deviceId source dest requestId H numChunks thisChunk C = m
  have eH : (BitVec.ofNat 16 H.length).toNat = H.length := by rw [BitVec.toNat_ofNat]; omega
  have eC : (BitVec.ofNat 16 C.length).toNat = C.length := by rw [BitVec.toNat_ofNat]; omega
  have dr15 : m.data.drop 15 = H ++ (le7 2 numChunks.toNat ++ (le7 2 thisChunk.toNat ++ (le7 2 C.length ++ C))) := by
    rw [← hm]; rfl
  have drH : m.data.drop (15 + H.length) = le7 2 numChunks.toNat ++ (le7 2 thisChunk.toNat ++ (le7 2 C.length ++ C)) := by
    rw [← List.drop_drop, dr15, List.drop_append, List.drop_eq_nil_of_le (Nat.le_refl _)]
    simp
  have hl : m.data.length = 21 + H.length + C.length := by
    rw [← hm, propertyMsg, msg_length]
    simp only [List.length_append, le7_length, List.length_cons, List.length_nil]
    omega
  have m13 : m.makeUint14 13 = .ok (BitVec.ofNat 16 H.length) := by
    refine read14_ofNat (n := H.length) (by omega) (c := ?_) ?_
    · exact H ++ (le7 2 numChunks.toNat ++ (le7 2 thisChunk.toNat ++ (le7 2 C.length ++ C)))
    · rw [← hm]; rfl
  have m15 : m.makeUint14 (15 + H.length) = .ok numChunks := read14 hn drH
  have m17 : m.makeUint14 (17 + H.length) = .ok thisChunk := by
    refine read14 ht (c := le7 2 C.length ++ C) ?_
    rw [show 17 + H.length = 15 + H.length + 2 by omega, ← List.drop_drop, drH]; rfl
  have m19 : m.makeUint14 (19 + H.length) = .ok (BitVec.ofNat 16 C.length) := by
    refine read14_ofNat (n := C.length) (by omega) (c := C) ?_
    rw [show 19 + H.length = 15 + H.length + 4 by omega, ← List.drop_drop, drH]; rfl
  have hsz : PropertyDataView.headerSize m = .ok H.length := by
    unfold PropertyDataView.headerSize; rw [m13, ok_bind, eH]; rfl
  have csz : PropertyDataView.chunkSize m = .ok C.length := by
    unfold PropertyDataView.chunkSize; rw [hsz, ok_bind, m19, ok_bind, eC]; rfl
  obtain ⟨v, hv1, hv2, hv3⟩ := property_views hst
  have h2 : m.data[2]? = some subtype := by rw [← hm]; rfl
  have hval : PropertyDataView.validate m = .ok true := by
    unfold PropertyDataView.validate
    have hr : ∀ b ∈ ([0x34, 0x35, 0x36, 0x37, 0x38, 0x39, 0x3F] : List Byte),
      decide (b ≥ 0x34) = true ∧ (decide (b ≤ 0x39) = true ∨ decide (b ≤ 0x39) = false ∧ (b == 0x3F) = true) := by decide
    obtain ⟨r1, r2⟩ := hr _ hst
    rw [show (isNonRealtime m &&! sizeAtLeast m 21 &&! dataAt m 1 (· == 0x0D) &&! dataAt m 2 (fun v => decide (v ≥ 0x34)))
      = .ok true by
      simp only [andThen_true, isNonRealtime_true, sizeAtLeast_true, dataAt_true, hl]
      exact ⟨by rw [← hm]; rfl, by omega, ⟨0x0D, by rw [← hm]; rfl, rfl⟩, _, h2, r1⟩, ok_bind, if_pos rfl]
    rw [show (dataAt m 2 (fun v => decide (v ≤ 0x39)) ||! dataAt m 2 (· == 0x3F)) = .ok true by
      rw [orElse_true]
      rcases r2 with r | ⟨r, r'⟩
      · left; rw [dataAt_true]; exact ⟨_, h2, r⟩
      · right
        refine ⟨?_, by rw [dataAt_true]; exact ⟨_, h2, r'⟩⟩
        unfold dataAt; rw [index_iff.2 h2, ← r]; rfl, ok_bind, if_pos rfl, m13, ok_bind]
    try dsimp only
    rw [eH, if_neg (by omega), m15, ok_bind]
    try dsimp only
    rw [m17, ok_bind]
    try dsimp only
    rw [m19, ok_bind]
    try dsimp only
    rw [eC, if_neg, if_neg, if_neg, decide_eq_true (by omega)]
    · rfl
    · rintro ⟨h3, h4⟩
      have h0 : thisChunk = 0 := BitVec.eq_of_toNat_eq (by rw [show (0 : U16).toNat = 0 from rfl]; omega)
      exact h3 (by rw [(hz h0).2]; rfl)
    · rintro ⟨h3, h4⟩
      rcases hfirst with h5 | h5
      · exact h3 (by rw [h5]; rfl)
      · omega
    · rintro ⟨h3, h4⟩
      rcases hnt with h5 | h5
      · exact h3 (by rw [h5]; rfl)
      · omega
  refine ⟨?_, ?_, hsz, ?_, ?_, ?_, csz, ?_⟩
  · have key : ∀ b ∈ ([0x34, 0x35, 0x36, 0x37, 0x38, 0x39, 0x3F] : List Byte), b.toNat < 0x80 := by decide
    have := isMessage (v := 2) (st := subtype) (dev := deviceId) (src := source) (dst := dest)
      (rest := [requestId] ++ (le7 2 H.length ++ (H ++ (le7 2 numChunks.toNat ++ (le7 2 thisChunk.toNat ++
      (le7 2 C.length ++ C)))))) _ (by seven) hv1 (by
        intro w hw
        have hm' : msg 2 subtype deviceId source dest ([requestId] ++ (le7 2 H.length ++ (H ++ (le7 2 numChunks.toNat ++
          (le7 2 thisChunk.toNat ++ (le7 2 C.length ++ C)))))) = m := hm
        rw [hm']
        simp only [List.mem_cons, List.not_mem_nil, or_false] at hw
        rcases hw with rfl | rfl
        · exact hval
        · exact hv3 m h2 hval) (key _ hst) hs hd hdev (by decide)
    rw [← hv2, ← hm]
    exact this
  · rw [← hm]; rfl
  · unfold PropertyDataView.header
    rw [hsz, ok_bind]
    exact readSlice (by omega) dr15 rfl
  · unfold PropertyDataView.numberOfChunks; rw [hsz, ok_bind, m15]
  · unfold PropertyDataView.numberOfThisChunk; rw [hsz, ok_bind, m17]
  · unfold PropertyDataView.chunk
    rw [hsz, ok_bind, csz, ok_bind]
    refine readSlice (c := []) (by omega) ?_ rfl
    rw [show 21 + H.length = 15 + H.length + 6 by omega, ← List.drop_drop, drH, List.append_nil]; rfl

example : HeaderOk (headerOf (ascii "{\"status\":200}")) ∧ ChunkOk 2 1 ⟨false, [0x41, 0x42]⟩ := by decide
example : ∃ m, makePropertyData 0x35 1 2 (headerOf (ascii "{\"status\":200}")) 2 1 ⟨false, [0x41, 0x42]⟩ 3 0x7F = .ok m ∧
    PropertyDataView.chunk m = .ok [0x41, 0x42] := ⟨_, rfl, rfl⟩

/-- The factory also builds messages the view does not accept: a header in a chunk other than the first. This is why C42
needs its last hypothesis. -/
theorem C42_header_in_second_chunk_rejected : ∃ m,
    makePropertyData 0x35 1 2 (headerOf (ascii "{}")) 2 2 ⟨false, [0x41]⟩ 3 0x7F = .ok m ∧
      m.isValid = true ∧ PropertyDataView.validate m = .ok false := ⟨_, rfl, rfl, rfl⟩

/-! ## Factories for the single messages -/

theorem seven_ascii {l : List Byte} (h : l.all (fun b => decide (b.toNat < 0x80)) = true) : Seven l := by
  intro b hb
  simpa using List.all_eq_true.1 h b hb

theorem rjson_ok {resource : List Byte} (h7 : Seven resource) (hl : resource.length ≤ 16368) :
    HeaderOk (headerOf (makeRjson (ascii "resource") resource)) := by
  refine ⟨fun h => (by cases h), ?_, ?_⟩
  · unfold headerOf makeRjson
    exact seven_append (seven_append (seven_append (seven_append (seven_ascii rfl) (seven_ascii rfl)) (seven_ascii rfl)) h7)
      (seven_ascii rfl)
  · simp only [headerOf, makeRjson, List.length_append, show (ascii "{\"").length = 2 from rfl,
      show (ascii "resource").length = 8 from rfl, show (ascii "\":\"").length = 3 from rfl,
      show (ascii "\"}").length = 2 from rfl]
    omega

theorem digits_seven (n : Nat) : Seven ((Nat.toDigits 10 n).map fun c => (BitVec.ofNat 8 c.toNat : Byte)) := by
  intro b hb
  rw [List.mem_map] at hb
  obtain ⟨c, hc, rfl⟩ := hb
  have := Nat.isDigit_of_mem_toDigits (by decide) (by decide) hc
  simp only [Char.isDigit, ge_iff_le, Bool.and_eq_true, decide_eq_true_eq, UInt32.le_iff_toNat_le] at this
  rw [BitVec.toNat_ofNat]
  have h2 := this.2
  rw [show c.toNat = c.val.toNat from rfl]
  have h3 : c.val.toNat ≤ 57 := h2
  omega

theorem decimal_seven (v : Int) : Seven (toDecimal v) := by
  unfold toDecimal
  split
  · exact seven_cons (by decide) (digits_seven _)
  · exact digits_seven _

theorem decimal_length {v : Int} (h1 : -2 ^ 31 ≤ v) (h2 : v < 2 ^ 31) : (toDecimal v).length ≤ 11 := by
  have h : (Nat.toDigits 10 v.natAbs).length ≤ 10 :=
    (Nat.length_toDigits_le_iff (by decide) (by decide)).2 (by omega)
  unfold toDecimal
  split
  · simp; omega
  · simp; omega

theorem status_ok {status : Int} (h1 : -2 ^ 31 ≤ status) (h2 : status < 2 ^ 31) :
    HeaderOk (headerOf (makeRjsonInt (ascii "status") status)) := by
  have hl := decimal_length h1 h2
  refine ⟨fun h => (by cases h), ?_, ?_⟩
  · unfold headerOf makeRjsonInt
    exact seven_append (seven_append (seven_append (seven_append (seven_ascii rfl) (seven_ascii rfl)) (seven_ascii rfl))
      (decimal_seven _)) (seven_ascii rfl)
  · simp only [headerOf, makeRjsonInt, List.length_append, show (ascii "{\"").length = 2 from rfl,
      show (ascii "status").length = 6 from rfl, show (ascii "\":").length = 2 from rfl,
      show (ascii "}").length = 1 from rfl]
    omega

theorem header_ok {h : List Byte} (h7 : Seven h) (hl : h.length ≤ 16383) : HeaderOk (headerOf h) :=
  ⟨fun h => (by cases h), h7, hl⟩

theorem chunk_none1 : ChunkOk 1 1 {} := by decide
theorem chunk_none0 : ChunkOk 0 0 {} := by decide
theorem header_none : HeaderOk {} := by decide

section
variable (source dest : Word) (requestId deviceId : Byte) (hs : U28 source) (hd : U28 dest) (hreq : U7 requestId)
  (hdev : U7 deviceId)
include hs hd hreq hdev

/-- C42: `make_get_property_data_inquiry`. -/
theorem C42_get_inquiry (resource : List Byte) (h7 : Seven resource) (hl : resource.length ≤ 16368) :
    ∃ m, makeGetInquiry source dest resource requestId deviceId = .ok m ∧
      IsPropertyMessage m 0x34 deviceId source dest requestId (ascii "{\"resource\":\"" ++ resource ++ ascii "\"}") 1 1 [] :=
  C42_property_data 0x34 source dest _ 1 1 {} requestId deviceId (by decide) hs hd hreq hdev (rjson_ok h7 hl) chunk_none1
    (Or.inr (by decide))

example := C42_get_inquiry 0x101 0x202 9 0x7F (by decide) (by decide) (by decide) (by decide) (ascii "X-List") (by decide) (by decide)

/-- C42: `make_get_property_data_inquiry` with options; `C52` says what the header `h` is. -/
theorem C42_get_inquiry_options (resource : List Byte) (options : List (List Byte × List Byte)) (h : List Byte)
    (hh : makeRjsonOptions (ascii "resource") resource options = .ok h) (h7 : Seven h) (hl : h.length ≤ 16383) :
    ∃ m, makeGetInquiryOptions source dest resource options requestId deviceId = .ok m ∧
      IsPropertyMessage m 0x34 deviceId source dest requestId h 1 1 [] := by
  unfold makeGetInquiryOptions
  rw [hh]
  exact C42_property_data 0x34 source dest _ 1 1 {} requestId deviceId (by decide) hs hd hreq hdev (header_ok h7 hl)
    chunk_none1 (Or.inr (by decide))

example := C42_get_inquiry_options 0x101 0x202 9 0x7F (by decide) (by decide) (by decide) (by decide) (ascii "X-List") [(ascii "offset", ascii "-20"), (ascii "resId", ascii "a1")] _ rfl (by decide +kernel) (by decide +kernel)

/-- C42: `make_get_property_data_reply` with a header. -/
theorem C42_get_reply_header (header : DataView) (numChunks thisChunk : U16) (chunk : DataView) (hh : HeaderOk header)
    (hc : ChunkOk numChunks thisChunk chunk) (hfirst : header.bytes = [] ∨ thisChunk.toNat ≤ 1) :
    ∃ m, makeGetReplyHeader source dest header numChunks thisChunk chunk requestId deviceId = .ok m ∧
      IsPropertyMessage m 0x35 deviceId source dest requestId header.bytes numChunks thisChunk chunk.bytes :=
  C42_property_data 0x35 source dest _ _ _ _ requestId deviceId (by decide) hs hd hreq hdev hh hc hfirst

example := C42_get_reply_header 0x101 0x202 9 0x7F (by decide) (by decide) (by decide) (by decide) (headerOf (ascii "{\"status\":200}")) 2 1 ⟨false, [0x41, 0x42]⟩ (by decide) (by decide) (by decide)

/-- C42: `make_get_property_data_reply` with a status. -/
theorem C42_get_reply_status (status : Int) (numChunks thisChunk : U16) (chunk : DataView) (h1 : -2 ^ 31 ≤ status)
    (h2 : status < 2 ^ 31) (hc : ChunkOk numChunks thisChunk chunk) (hfirst : thisChunk.toNat ≤ 1) :
    ∃ m, makeGetReplyStatus source dest status numChunks thisChunk chunk requestId deviceId = .ok m ∧
      IsPropertyMessage m 0x35 deviceId source dest requestId (makeRjsonInt (ascii "status") status) numChunks thisChunk
        chunk.bytes :=
  C42_property_data 0x35 source dest _ _ _ _ requestId deviceId (by decide) hs hd hreq hdev (status_ok h1 h2) hc
    (Or.inr hfirst)

example := C42_get_reply_status 0x101 0x202 9 0x7F (by decide) (by decide) (by decide) (by decide) 404 2 1 ⟨false, [0x41, 0x42]⟩ (by decide) (by decide) (by decide) (by decide)

/-- C42: `make_get_property_data_reply` with status and message. -/
theorem C42_get_reply_message (status : Int) (message : List Byte) (numChunks thisChunk : U16) (chunk : DataView)
    (h : List Byte) (hh : makeRjsonIntOptions (ascii "status") status [(ascii "message", message)] = .ok h) (h7 : Seven h)
    (hl : h.length ≤ 16383) (hc : ChunkOk numChunks thisChunk chunk) (hfirst : thisChunk.toNat ≤ 1) :
    ∃ m, makeGetReplyMessage source dest status message numChunks thisChunk chunk requestId deviceId = .ok m ∧
      IsPropertyMessage m 0x35 deviceId source dest requestId h numChunks thisChunk chunk.bytes := by
  unfold makeGetReplyMessage
  rw [hh]
  exact C42_property_data 0x35 source dest _ _ _ _ requestId deviceId (by decide) hs hd hreq hdev (header_ok h7 hl) hc
    (Or.inr hfirst)

example := C42_get_reply_message 0x101 0x202 9 0x7F (by decide) (by decide) (by decide) (by decide) 404 (ascii "not found") 2 1 ⟨false, [0x41, 0x42]⟩ _ rfl (by decide +kernel) (by decide +kernel) (by decide) (by decide)

/-- C42: `make_get_property_data_reply` without header. -/
theorem C42_get_reply_chunk (numChunks thisChunk : U16) (chunk : DataView) (hc : ChunkOk numChunks thisChunk chunk) :
    ∃ m, makeGetReplyChunk source dest numChunks thisChunk chunk requestId deviceId = .ok m ∧
      IsPropertyMessage m 0x35 deviceId source dest requestId [] numChunks thisChunk chunk.bytes :=
  C42_property_data 0x35 source dest {} _ _ _ requestId deviceId (by decide) hs hd hreq hdev header_none hc (Or.inl rfl)

example := C42_get_reply_chunk 0x101 0x202 9 0x7F (by decide) (by decide) (by decide) (by decide) 2 2 ⟨false, [0x41, 0x42]⟩ (by decide)

/-- C42: `make_set_property_data_inquiry`. -/
theorem C42_set_inquiry (resource : List Byte) (numChunks thisChunk : U16) (chunk : DataView) (h7 : Seven resource)
    (hl : resource.length ≤ 16368) (hc : ChunkOk numChunks thisChunk chunk) (hfirst : thisChunk.toNat ≤ 1) :
    ∃ m, makeSetInquiry source dest resource numChunks thisChunk chunk requestId deviceId = .ok m ∧
      IsPropertyMessage m 0x36 deviceId source dest requestId (ascii "{\"resource\":\"" ++ resource ++ ascii "\"}") numChunks
        thisChunk chunk.bytes :=
  C42_property_data 0x36 source dest _ _ _ _ requestId deviceId (by decide) hs hd hreq hdev (rjson_ok h7 hl) hc
    (Or.inr hfirst)

example := C42_set_inquiry 0x101 0x202 9 0x7F (by decide) (by decide) (by decide) (by decide) (ascii "X-List") 2 1 ⟨false, [0x41, 0x42]⟩ (by decide) (by decide) (by decide) (by decide)

/-- C42: `make_set_property_data_inquiry` with options. -/
theorem C42_set_inquiry_options (resource : List Byte) (options : List (List Byte × List Byte)) (numChunks thisChunk : U16)
    (chunk : DataView) (h : List Byte) (hh : makeRjsonOptions (ascii "resource") resource options = .ok h) (h7 : Seven h)
    (hl : h.length ≤ 16383) (hc : ChunkOk numChunks thisChunk chunk) (hfirst : thisChunk.toNat ≤ 1) :
    ∃ m, makeSetInquiryOptions source dest resource options numChunks thisChunk chunk requestId deviceId = .ok m ∧
      IsPropertyMessage m 0x36 deviceId source dest requestId h numChunks thisChunk chunk.bytes := by
  unfold makeSetInquiryOptions
  rw [hh]
  exact C42_property_data 0x36 source dest _ _ _ _ requestId deviceId (by decide) hs hd hreq hdev (header_ok h7 hl) hc
    (Or.inr hfirst)

example := C42_set_inquiry_options 0x101 0x202 9 0x7F (by decide) (by decide) (by decide) (by decide) (ascii "X-List") [(ascii "offset", ascii "-20"), (ascii "resId", ascii "a1")] 2 1 ⟨false, [0x41, 0x42]⟩ _ rfl (by decide +kernel) (by decide +kernel) (by decide) (by decide)

/-- C42: `make_set_property_data_inquiry` without header. -/
theorem C42_set_inquiry_chunk (numChunks thisChunk : U16) (chunk : DataView) (hc : ChunkOk numChunks thisChunk chunk) :
    ∃ m, makeSetInquiryChunk source dest numChunks thisChunk chunk requestId deviceId = .ok m ∧
      IsPropertyMessage m 0x36 deviceId source dest requestId [] numChunks thisChunk chunk.bytes :=
  C42_property_data 0x36 source dest {} _ _ _ requestId deviceId (by decide) hs hd hreq hdev header_none hc (Or.inl rfl)

example := C42_set_inquiry_chunk 0x101 0x202 9 0x7F (by decide) (by decide) (by decide) (by decide) 2 2 ⟨false, [0x41, 0x42]⟩ (by decide)

/-- C42: `make_set_property_data_reply`. -/
theorem C42_set_reply (status : Int) (h1 : -2 ^ 31 ≤ status) (h2 : status < 2 ^ 31) :
    ∃ m, makeSetReply source dest status requestId deviceId = .ok m ∧
      IsPropertyMessage m 0x37 deviceId source dest requestId (makeRjsonInt (ascii "status") status) 1 1 [] :=
  C42_property_data 0x37 source dest _ _ _ {} requestId deviceId (by decide) hs hd hreq hdev (status_ok h1 h2) chunk_none1
    (Or.inr (by decide))

example := C42_set_reply 0x101 0x202 9 0x7F (by decide) (by decide) (by decide) (by decide) 200 (by decide) (by decide)

/-- C42: `make_set_property_data_reply` with message. -/
theorem C42_set_reply_message (status : Int) (message h : List Byte)
    (hh : makeRjsonIntOptions (ascii "status") status [(ascii "message", message)] = .ok h) (h7 : Seven h)
    (hl : h.length ≤ 16383) :
    ∃ m, makeSetReplyMessage source dest status message requestId deviceId = .ok m ∧
      IsPropertyMessage m 0x37 deviceId source dest requestId h 1 1 [] := by
  unfold makeSetReplyMessage
  rw [hh]
  exact C42_property_data 0x37 source dest _ _ _ {} requestId deviceId (by decide) hs hd hreq hdev (header_ok h7 hl)
    chunk_none1 (Or.inr (by decide))

example := C42_set_reply_message 0x101 0x202 9 0x7F (by decide) (by decide) (by decide) (by decide) 404 (ascii "not found") _ rfl (by decide +kernel) (by decide +kernel)

/-- C42: `make_subscription_inquiry`. -/
theorem C42_subscription_inquiry (resource command subscribeId h : List Byte)
    (hh : makeRjsonOptions (ascii "resource") resource [(ascii "command", command), (ascii "subscribeId", subscribeId)]
      = .ok h) (h7 : Seven h) (hl : h.length ≤ 16383) :
    ∃ m, makeSubscriptionInquiry source dest resource command subscribeId requestId deviceId = .ok m ∧
      IsPropertyMessage m 0x38 deviceId source dest requestId h 0 0 [] := by
  unfold makeSubscriptionInquiry
  rw [hh]
  exact C42_property_data 0x38 source dest _ _ _ {} requestId deviceId (by decide) hs hd hreq hdev (header_ok h7 hl)
    chunk_none0 (Or.inr (by decide))

example := C42_subscription_inquiry 0x101 0x202 9 0x7F (by decide) (by decide) (by decide) (by decide) (ascii "X-List") (ascii "start") (ascii "x1") _ rfl (by decide +kernel) (by decide +kernel)

/-- C42: `make_subscription_inquiry` with chunks. -/
theorem C42_subscription_inquiry_chunks (resource command subscribeId h : List Byte) (numChunks thisChunk : U16)
    (chunk : DataView)
    (hh : makeRjsonOptions (ascii "resource") resource [(ascii "command", command), (ascii "subscribeId", subscribeId)]
      = .ok h) (h7 : Seven h) (hl : h.length ≤ 16383) (hc : ChunkOk numChunks thisChunk chunk)
    (hfirst : thisChunk.toNat ≤ 1) :
    ∃ m, makeSubscriptionInquiryChunks source dest resource command subscribeId numChunks thisChunk chunk requestId
        deviceId = .ok m ∧
      IsPropertyMessage m 0x38 deviceId source dest requestId h numChunks thisChunk chunk.bytes := by
  unfold makeSubscriptionInquiryChunks
  rw [hh]
  exact C42_property_data 0x38 source dest _ _ _ _ requestId deviceId (by decide) hs hd hreq hdev (header_ok h7 hl) hc
    (Or.inr hfirst)

example := C42_subscription_inquiry_chunks 0x101 0x202 9 0x7F (by decide) (by decide) (by decide) (by decide) (ascii "X-List") (ascii "start") (ascii "x1") _ 2 1 ⟨false, [0x41, 0x42]⟩ rfl (by decide +kernel) (by decide +kernel) (by decide) (by decide)

/-- C42: `make_subscription_inquiry` without header. -/
theorem C42_subscription_inquiry_chunk (numChunks thisChunk : U16) (chunk : DataView)
    (hc : ChunkOk numChunks thisChunk chunk) :
    ∃ m, makeSubscriptionInquiryChunk source dest numChunks thisChunk chunk requestId deviceId = .ok m ∧
      IsPropertyMessage m 0x38 deviceId source dest requestId [] numChunks thisChunk chunk.bytes :=
  C42_property_data 0x38 source dest {} _ _ _ requestId deviceId (by decide) hs hd hreq hdev header_none hc (Or.inl rfl)

example := C42_subscription_inquiry_chunk 0x101 0x202 9 0x7F (by decide) (by decide) (by decide) (by decide) 2 2 ⟨false, [0x41, 0x42]⟩ (by decide)

/-- C42: `make_subscription_reply`. -/
theorem C42_subscription_reply (status : Int) (h1 : -2 ^ 31 ≤ status) (h2 : status < 2 ^ 31) :
    ∃ m, makeSubscriptionReply source dest status requestId deviceId = .ok m ∧
      IsPropertyMessage m 0x39 deviceId source dest requestId (makeRjsonInt (ascii "status") status) 1 1 [] :=
  C42_property_data 0x39 source dest _ _ _ {} requestId deviceId (by decide) hs hd hreq hdev (status_ok h1 h2) chunk_none1
    (Or.inr (by decide))

example := C42_subscription_reply 0x101 0x202 9 0x7F (by decide) (by decide) (by decide) (by decide) 200 (by decide) (by decide)

/-- C42: `make_subscription_reply` with message. -/
theorem C42_subscription_reply_message (status : Int) (message h : List Byte)
    (hh : makeRjsonIntOptions (ascii "status") status [(ascii "message", message)] = .ok h) (h7 : Seven h)
    (hl : h.length ≤ 16383) :
    ∃ m, makeSubscriptionReplyMessage source dest status message requestId deviceId = .ok m ∧
      IsPropertyMessage m 0x39 deviceId source dest requestId h 1 1 [] := by
  unfold makeSubscriptionReplyMessage
  rw [hh]
  exact C42_property_data 0x39 source dest _ _ _ {} requestId deviceId (by decide) hs hd hreq hdev (header_ok h7 hl)
    chunk_none1 (Or.inr (by decide))

example := C42_subscription_reply_message 0x101 0x202 9 0x7F (by decide) (by decide) (by decide) (by decide) 404 (ascii "not found") _ rfl (by decide +kernel) (by decide +kernel)

/-- C42: `make_notify_message`. -/
theorem C42_notify (status : Int) (h1 : -2 ^ 31 ≤ status) (h2 : status < 2 ^ 31) :
    ∃ m, makeNotify source dest status requestId deviceId = .ok m ∧
      IsPropertyMessage m 0x3F deviceId source dest requestId (makeRjsonInt (ascii "status") status) 1 1 [] :=
  C42_property_data 0x3F source dest _ _ _ {} requestId deviceId (by decide) hs hd hreq hdev (status_ok h1 h2) chunk_none1
    (Or.inr (by decide))

/-- C42: `make_notify_message` with message. -/
theorem C42_notify_message (status : Int) (message h : List Byte)
    (hh : makeRjsonIntOptions (ascii "status") status [(ascii "message", message)] = .ok h) (h7 : Seven h)
    (hl : h.length ≤ 16383) :
    ∃ m, makeNotifyMessage source dest status message requestId deviceId = .ok m ∧
      IsPropertyMessage m 0x3F deviceId source dest requestId h 1 1 [] := by
  unfold makeNotifyMessage
  rw [hh]
  exact C42_property_data 0x3F source dest _ _ _ {} requestId deviceId (by decide) hs hd hreq hdev (header_ok h7 hl)
    chunk_none1 (Or.inr (by decide))

end

example : ∃ h, makeRjsonOptions (ascii "resource") (ascii "DeviceInfo")
    [(ascii "command", ascii "start"), (ascii "subscribeId", ascii "x1")] = .ok h ∧ Seven h ∧ h.length ≤ 16383 :=
  ⟨_, rfl, by decide +kernel, by decide +kernel⟩

end CI
end Midi
