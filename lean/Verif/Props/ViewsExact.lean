import Verif.Lemmas.CIMessages
import Verif.Props.Views

/-!
# C55: views accept exactly the complete messages of their kind

`CIMessage`, `AtLeast`, `Counted`, … (Verif.Spec.CIMessages) describe the messages as sequences of bytes. Messages with
size fields are described by numbers of 7 bit digits, so these theorems are about messages of 7 bit bytes.
-/

namespace Midi
namespace CI
open UniversalSysex
open Midi.Spec (CIMessage AtLeast AtLeastV Counted TwoProfileLists PropertyData le7)

theorem nrt_iff {s : Sysex} {rest : Except Fault Bool} :
    (isNonRealtime s &&! rest) = .ok true ↔ s.manufacturerID = universalNonRealtime ∧ rest = .ok true := by
  rw [andThen_true, isNonRealtime_true]

theorem dataAt_eq {s : Sysex} {i : Nat} {v : Byte} : dataAt s i (· == v) = .ok true ↔ s.data[i]? = some v := by
  rw [dataAt_true]
  constructor
  · rintro ⟨b, h, e⟩; rw [h, eq_of_beq e]
  · intro h; exact ⟨v, h, by simp⟩

/-- The general part: given the number of bytes, the remaining conditions of `validate` are those on the content. -/
theorem general {s : Sysex} {subs : List Byte} {c : Byte → Bool} {P : Byte → List Byte → Prop} {n : Nat} (hn : 12 ≤ n)
    (hc : ∀ b, c b = true ↔ b ∈ subs) (hP : ∀ v p, P v p → n ≤ 12 + p.length) :
    CIMessage subs P s ↔ s.manufacturerID = universalNonRealtime ∧ n ≤ s.data.length ∧ s.data[1]? = some 0x0D ∧
      dataAt s 2 c = .ok true ∧ ∃ v, s.data[3]? = some v ∧ P v (s.data.drop 12) := by
  rw [ciMessage_iff, dataAt_true]
  constructor
  · rintro ⟨h1, h2, h3, sub, v, h4, h5, h6, h7⟩
    have := hP _ _ h7
    rw [List.length_drop] at this
    exact ⟨h1, by omega, h3, ⟨sub, h4, (hc _).2 h5⟩, v, h6, h7⟩
  · rintro ⟨h1, h2, h3, ⟨sub, h4, h5⟩, v, h6, h7⟩
    exact ⟨h1, by omega, h3, sub, v, h4, (hc _).1 h5, h6, h7⟩

theorem third {s : Sysex} (h : 12 ≤ s.data.length) : ∃ v, s.data[3]? = some v :=
  ⟨_, List.getElem?_eq_getElem (by omega)⟩

/-- Messages with a minimum size. -/
theorem atLeast_iff {s : Sysex} {subs : List Byte} {c : Byte → Bool} (n : Nat) (hc : ∀ b, c b = true ↔ b ∈ subs) :
    CIMessage subs (AtLeast n) s ↔ s.manufacturerID = universalNonRealtime ∧ 12 + n ≤ s.data.length ∧
      s.data[1]? = some 0x0D ∧ dataAt s 2 c = .ok true := by
  rw [general (n := 12 + n) (by omega) hc (by intro v p h; unfold AtLeast at h; omega)]
  constructor
  · rintro ⟨h1, h2, h3, h4, -⟩; exact ⟨h1, h2, h3, h4⟩
  · rintro ⟨h1, h2, h3, h4⟩
    obtain ⟨v, hv⟩ := third (s := s) (by omega)
    exact ⟨h1, h2, h3, h4, v, hv, by show n ≤ _; rw [List.length_drop]; omega⟩

theorem one_iff (x : Byte) : ∀ b : Byte, (b == x) = true ↔ b ∈ [x] := by intro b; simp

theorem simple {s : Sysex} {n : Nat} {x : Byte} (k : Nat) (hk : n = 12 + k) :
    (isNonRealtime s &&! sizeAtLeast s n &&! dataAt s 1 (· == 0x0D) &&! dataAt s 2 (· == x)) = .ok true ↔
      CIMessage [x] (AtLeast k) s := by
  rw [atLeast_iff k (one_iff x), nrt_iff, andThen_true, andThen_true, sizeAtLeast_true, dataAt_eq, hk]

/-- C55: endpoint information inquiry. -/
theorem C55_endpoint_information_inquiry (s : Sysex) :
    EndpointInformationInquiryView.validate s = .ok true ↔ CIMessage [0x72] (AtLeast 1) s := simple 1 rfl

/-- C55: profile details inquiry. -/
theorem C55_profile_details_inquiry (s : Sysex) :
    ProfileDetailsInquiryView.validate s = .ok true ↔ CIMessage [0x28] (AtLeast 6) s := simple 6 rfl

/-- C55: process inquiry capabilities reply. -/
theorem C55_process_inquiry_capabilities_reply (s : Sysex) :
    ProcessInquiryCapabilitiesReplyView.validate s = .ok true ↔ CIMessage [0x41] (AtLeast 1) s := simple 1 rfl

/-- C55: MIDI message report inquiry. -/
theorem C55_midi_message_report_inquiry (s : Sysex) :
    MidiMessageReportInquiryView.validate s = .ok true ↔ CIMessage [0x42] (AtLeast 5) s := simple 5 rfl

/-- C55: MIDI message report reply. -/
theorem C55_midi_message_report_reply (s : Sysex) :
    MidiMessageReportReplyView.validate s = .ok true ↔ CIMessage [0x43] (AtLeast 4) s := simple 4 rfl

theorem range_iff {s : Sysex} {a b : Byte} :
    (dataAt s 2 (fun v => decide (v ≥ a)) &&! dataAt s 2 (fun v => decide (v ≤ b))) = .ok true ↔
      dataAt s 2 (fun v => decide (v ≥ a ∧ v ≤ b)) = .ok true := by
  rw [andThen_true, dataAt_true, dataAt_true, dataAt_true]
  constructor
  · rintro ⟨⟨x, hx, h⟩, y, hy, h'⟩
    rw [hx] at hy; injection hy with e; subst e
    exact ⟨x, hx, by simpa using ⟨by simpa using h, by simpa using h'⟩⟩
  · rintro ⟨x, hx, h⟩
    simp only [decide_eq_true_eq] at h
    exact ⟨⟨x, hx, by simpa using h.1⟩, x, hx, by simpa using h.2⟩

/-- C55: the messages about a single profile: set on, set off, enabled, disabled, added, removed. -/
theorem C55_profile_id (s : Sysex) : ProfileIdView.validate s = .ok true ↔
    CIMessage [0x22, 0x23, 0x24, 0x25, 0x26, 0x27] (AtLeast 5) s := by
  unfold ProfileIdView.validate
  rw [atLeast_iff 5 (c := fun v => decide (v ≥ 0x22 ∧ v ≤ 0x27)) (by decide +kernel), nrt_iff, andThen_true,
    andThen_true, sizeAtLeast_true, dataAt_eq, range_iff]

/-- C55: those of them with a number of channels. -/
theorem C55_profile_destination (s : Sysex) : ProfileDestinationView.validate s = .ok true ↔
    CIMessage [0x22, 0x23, 0x24, 0x25] (AtLeast 7) s := by
  unfold ProfileDestinationView.validate
  rw [atLeast_iff 7 (c := fun v => decide (v ≥ 0x22 ∧ v ≤ 0x25)) (by decide +kernel), nrt_iff, andThen_true,
    andThen_true, sizeAtLeast_true, dataAt_eq, range_iff]

/-- C55: discovery inquiry. -/
theorem C55_discovery_inquiry (s : Sysex) :
    DiscoveryInquiryView.validate s = .ok true ↔ CIMessage [0x70] (AtLeastV 16 17) s := by
  unfold DiscoveryInquiryView.validate
  rw [general (n := 28) (by decide) (one_iff 0x70) (by intro v p h; have := h.1; omega), nrt_iff, andThen_true,
    andThen_true, map_true, dataAt_eq]
  constructor
  · rintro ⟨h1, ⟨v, hv, h2⟩, h3, h4⟩
    rw [index_iff] at hv
    simp only [decide_eq_true_eq] at h2
    refine ⟨h1, by omega, h3, h4, v, hv, ?_⟩
    simp only [AtLeastV, List.length_drop]
    refine ⟨by omega, fun h => ?_⟩
    rw [if_pos (by rw [gt_iff_lt, BitVec.lt_def]; exact h)] at h2
    omega
  · rintro ⟨h1, h2, h3, h4, v, hv, h5⟩
    refine ⟨h1, ⟨v, index_iff.2 hv, ?_⟩, h3, h4⟩
    simp only [AtLeastV, List.length_drop] at h5
    simp only [decide_eq_true_eq]
    split
    · rename_i h
      rw [gt_iff_lt, BitVec.lt_def] at h
      have := h5.2 h
      omega
    · omega

/-- C55: discovery reply. -/
theorem C55_discovery_reply (s : Sysex) :
    DiscoveryReplyView.validate s = .ok true ↔ CIMessage [0x71] (AtLeastV 16 18) s := by
  unfold DiscoveryReplyView.validate
  rw [general (n := 28) (by decide) (one_iff 0x71) (by intro v p h; have := h.1; omega), nrt_iff, andThen_true,
    andThen_true, map_true, dataAt_eq]
  constructor
  · rintro ⟨h1, ⟨v, hv, h2⟩, h3, h4⟩
    rw [index_iff] at hv
    simp only [decide_eq_true_eq] at h2
    refine ⟨h1, by omega, h3, h4, v, hv, ?_⟩
    simp only [AtLeastV, List.length_drop]
    refine ⟨by omega, fun h => ?_⟩
    rw [if_pos (by rw [gt_iff_lt, BitVec.lt_def]; exact h)] at h2
    omega
  · rintro ⟨h1, h2, h3, h4, v, hv, h5⟩
    refine ⟨h1, ⟨v, index_iff.2 hv, ?_⟩, h3, h4⟩
    simp only [AtLeastV, List.length_drop] at h5
    simp only [decide_eq_true_eq]
    split
    · rename_i h
      rw [gt_iff_lt, BitVec.lt_def] at h
      have := h5.2 h
      omega
    · omega

/-- C55: property exchange capabilities, inquiry and reply. -/
theorem C55_property_exchange_capabilities (s : Sysex) :
    PropertyExchangeCapabilitiesView.validate s = .ok true ↔ CIMessage [0x30, 0x31] (AtLeastV 1 3) s := by
  unfold PropertyExchangeCapabilitiesView.validate
  rw [general (n := 13) (c := fun v => decide (v ≥ 0x30 ∧ v ≤ 0x31)) (by decide) (by decide +kernel)
    (by intro v p h; have := h.1; omega), nrt_iff, andThen_true, andThen_true, sizeAtLeast_true, dataAt_eq, ← range_iff,
    andThen_true, andThen_true, andThen_true, orElse_true, dataAt_true (i := 3), sizeAtLeast_true]
  constructor
  · rintro ⟨h1, h2, h3, h4, h5, h6⟩
    obtain ⟨v, hv⟩ : ∃ v, s.data[3]? = some v := ⟨_, List.getElem?_eq_getElem (by omega)⟩
    refine ⟨h1, h2, h3, ⟨h4, h5⟩, v, hv, ?_⟩
    simp only [AtLeastV, List.length_drop]
    refine ⟨by omega, fun h => ?_⟩
    rcases h6 with ⟨w, hw, h6⟩ | h6
    · rw [hv] at hw; injection hw with e; subst e
      simp only [decide_eq_true_eq, BitVec.lt_def] at h6
      have : (2 : Byte).toNat = 2 := rfl
      omega
    · omega
  · rintro ⟨h1, h2, h3, ⟨h4, h5⟩, v, hv, h6⟩
    refine ⟨h1, h2, h3, h4, h5, ?_⟩
    simp only [AtLeastV, List.length_drop] at h6
    by_cases h : v < 2
    · exact .inl ⟨v, hv, by simpa using h⟩
    · refine .inr ⟨?_, ?_⟩
      · unfold dataAt
        rw [index_iff.2 hv]
        simp only [Except.map, h, decide_false]
      · have := h6.2 (by rw [BitVec.lt_def] at h; have : (2 : Byte).toNat = 2 := rfl; omega)
        omega

theorem subtype_true {s : Sysex} {x : Byte} (hx : x ≠ 0) (hm : s.manufacturerID = universalNonRealtime) :
    (subtypeOf s).map (· == x) = .ok true ↔ dataAt s 2 (· == x) = .ok true := by
  rw [dataAt_eq, map_true]
  unfold subtypeOf isUniversal
  rw [hm]
  by_cases h : 2 < s.data.length
  · simp only [beq_self_eq_true, Bool.or_true, h, decide_true, Bool.and_true,
      decide_eq_true (show 2 ≤ s.data.length by omega), if_true, index_iff, beq_iff_eq]
    constructor
    · rintro ⟨a, ha, rfl⟩; exact ha
    · intro h; exact ⟨_, h, rfl⟩
  · rw [if_neg (by simp [h])]
    rw [List.getElem?_eq_none (by omega)]
    constructor
    · rintro ⟨a, ha, e⟩
      injection ha with ha
      exact absurd (ha ▸ eq_of_beq e).symm hx
    · intro h; cases h

theorem typeOf_true {s : Sysex} : (typeOf s).map (· == 0x7E0D) = .ok true ↔
    s.manufacturerID = universalNonRealtime ∧ s.data[1]? = some 0x0D := by
  refine ⟨isCI, fun ⟨h1, h2⟩ => ?_⟩
  unfold typeOf isUniversal
  have : 1 < s.data.length := by
    by_contra h; rw [List.getElem?_eq_none (by omega)] at h2; cases h2
  rw [h1, if_pos (by simp; omega), index_iff.2 h2]
  rfl

theorem invalidate_like {s : Sysex} {n : Nat} {x : Byte} (hx : x ≠ 0) :
    ((typeOf s).map (· == 0x7E0D) &&! (subtypeOf s).map (· == x) &&! sizeAtLeast s (12 + n)) = .ok true ↔
      CIMessage [x] (AtLeast n) s := by
  rw [atLeast_iff n (one_iff x), andThen_true, andThen_true, typeOf_true, sizeAtLeast_true]
  constructor
  · rintro ⟨⟨h1, h2⟩, h3, h4⟩
    exact ⟨h1, h4, h2, (subtype_true hx h1).1 h3⟩
  · rintro ⟨h1, h2, h3, h4⟩
    exact ⟨⟨h1, h3⟩, (subtype_true hx h1).2 h4, h2⟩

/-- C55: invalidate MUID. -/
theorem C55_invalidate_muid (s : Sysex) :
    InvalidateMuidView.validate s = .ok true ↔ CIMessage [0x7E] (AtLeast 4) s :=
  invalidate_like (n := 4) (x := 0x7E) (by decide)

/-- C55: profile inquiry. -/
theorem C55_profile_inquiry (s : Sysex) :
    ProfileInquiryView.validate s = .ok true ↔ CIMessage [0x20] (AtLeast 0) s :=
  invalidate_like (n := 0) (x := 0x20) (by decide)

/-- Messages with a size field of two digits. -/
theorem counted_like {s : Sysex} (h7 : Seven s) {x : Byte} (n : Nat) :
    (isNonRealtime s &&! sizeAtLeast s (12 + n + 2) &&! sizeAtLeast14 s (12 + n + 2) (12 + n) &&!
      dataAt s 1 (· == 0x0D) &&! dataAt s 2 (· == x)) = .ok true ↔ CIMessage [x] (Counted n 2) s := by
  rw [general (n := 12 + n + 2) (by omega) (one_iff x) (by
    rintro v p ⟨f, d, r, rfl, h, -⟩; simp [le7_length]; omega), nrt_iff, andThen_true, andThen_true, andThen_true,
    sizeAtLeast_true, dataAt_eq, sizeAtLeast14_true]
  constructor
  · rintro ⟨h1, h2, h3, h4, h5⟩
    obtain ⟨v, hv⟩ := third (s := s) (by omega)
    exact ⟨h1, h2, h4, h5, v, hv, (counted14_iff h7 (by omega)).2 h3⟩
  · rintro ⟨h1, h2, h3, h4, v, hv, h5⟩
    exact ⟨h1, h2, (counted14_iff h7 (by omega)).1 h5, h3, h4⟩

/-- C55: endpoint information reply. -/
theorem C55_endpoint_information_reply (s : Sysex) (h7 : ∀ b ∈ s.data, b.toNat < 128) :
    EndpointInformationReplyView.validate s = .ok true ↔ CIMessage [0x73] (Counted 1 2) s :=
  counted_like h7 1

example := C55_endpoint_information_reply ⟨0x7E0000, [0x10, 0x0D, 0x73, 2, 1, 2, 3, 4, 5, 6, 7, 8, 0, 3, 0, 0x41, 0x42, 0x43]⟩ (by decide)

/-- C55: ACK. -/
theorem C55_ack (s : Sysex) (h7 : ∀ b ∈ s.data, b.toNat < 128) :
    AckView.validate s = .ok true ↔ CIMessage [0x7D] (Counted 8 2) s := counted_like h7 8

example := C55_ack ⟨0x7E0000, [0x10, 0x0D, 0x7d, 2, 1, 2, 3, 4, 5, 6, 7, 8, 0x34, 1, 2, 1, 2, 3, 4, 5, 2, 0, 0x41, 0x42]⟩ (by decide)

/-- C55: NAK. Those of version 1 have no content, and are not accepted. -/
theorem C55_nak (s : Sysex) (h7 : ∀ b ∈ s.data, b.toNat < 128) :
    NakView.validate s = .ok true ↔ CIMessage [0x7F] (fun v p => 2 ≤ v.toNat ∧ Counted 8 2 v p) s := by
  unfold NakView.validate
  rw [general (n := 22) (by omega) (one_iff 0x7F) (by
    rintro v p ⟨-, f, d, r, rfl, h, -⟩; simp [le7_length]; omega), nrt_iff, andThen_true, andThen_true,
    andThen_true, andThen_true, sizeAtLeast_true, dataAt_eq, sizeAtLeast14_true,
    dataAt_true (c := fun v => decide (v ≥ 2))]
  constructor
  · rintro ⟨h1, h2, h3, h4, h5, v, hv, h6⟩
    refine ⟨h1, h2, h4, h5, v, hv, ?_, (counted14_iff h7 (by omega)).2 h3⟩
    simpa [BitVec.le_def] using h6
  · rintro ⟨h1, h2, h3, h4, v, hv, h6, h5⟩
    exact ⟨h1, h2, (counted14_iff h7 (by omega)).1 h5, h3, h4, v, hv, by simpa [BitVec.le_def] using h6⟩

example := C55_nak ⟨0x7E0000, [0x10, 0x0D, 0x7f, 2, 1, 2, 3, 4, 5, 6, 7, 8, 0x34, 1, 2, 1, 2, 3, 4, 5, 2, 0, 0x41, 0x42]⟩ (by decide)

/-- C55: profile details reply. -/
theorem C55_profile_details_reply (s : Sysex) (h7 : ∀ b ∈ s.data, b.toNat < 128) :
    ProfileDetailsReplyView.validate s = .ok true ↔ CIMessage [0x29] (Counted 6 2) s :=
  counted_like h7 6

example := C55_profile_details_reply ⟨0x7E0000, [0x10, 0x0D, 0x29, 2, 1, 2, 3, 4, 5, 6, 7, 8, 0x7e, 1, 2, 3, 4, 1, 2, 0, 0x41, 0x42]⟩ (by decide)

/-- C55: profile specific data. -/
theorem C55_profile_specific_data (s : Sysex) (h7 : ∀ b ∈ s.data, b.toNat < 128) :
    ProfileSpecificDataView.validate s = .ok true ↔ CIMessage [0x2F] (Counted 5 4) s := by
  unfold ProfileSpecificDataView.validate
  rw [general (n := 21) (by omega) (one_iff 0x2F) (by
    rintro v p ⟨f, d, r, rfl, h, -⟩; simp [le7_length]; omega), nrt_iff, andThen_true, andThen_true,
    andThen_true, sizeAtLeast_true, dataAt_eq, map_true]
  constructor
  · rintro ⟨h1, h2, ⟨l, hl, h3⟩, h4, h5⟩
    obtain ⟨v, hv⟩ := third (s := s) (by omega)
    exact ⟨h1, h2, h4, h5, v, hv, (counted28_iff h7 (by omega)).2 ⟨l, hl, by simpa using h3⟩⟩
  · rintro ⟨h1, h2, h3, h4, v, hv, h5⟩
    obtain ⟨l, hl, h⟩ := (counted28_iff h7 (by omega)).1 h5
    exact ⟨h1, h2, ⟨l, hl, by simpa using h⟩, h3, h4⟩

example := C55_profile_specific_data ⟨0x7E0000, [0x10, 0x0D, 0x2f, 2, 1, 2, 3, 4, 5, 6, 7, 8, 0x7e, 1, 2, 3, 4, 2, 0, 0, 0, 0x41, 0x42]⟩ (by decide)

theorem uint14_append {s : Sysex} (h7 : ∀ b ∈ s.data, b.toNat < 128) {pos n : Nat} {a b : List Byte}
    (hd : s.data = a ++ (le7 2 n ++ b)) (ha : a.length = pos) (hn : n < 128 ^ 2) :
    ∃ l, s.makeUint14 pos = .ok l ∧ l.toNat = n :=
  (uint14_iff h7).2 ⟨hn, b, by rw [hd, ← ha]; simp⟩

/-- C55: profile inquiry reply. -/
theorem C55_profile_inquiry_reply (s : Sysex) (h7 : ∀ b ∈ s.data, b.toNat < 128) :
    ProfileInquiryReplyView.validate s = .ok true ↔ CIMessage [0x21] TwoProfileLists s := by
  rw [general (n := 16) (by decide) (one_iff 0x21) (by
    rintro v p ⟨n, e, m, d, r, rfl, -⟩; simp [le7_length]; omega)]
  unfold ProfileInquiryReplyView.validate
  constructor
  · intro h
    obtain ⟨b, hb, h⟩ : ∃ b, (isNonRealtime s &&! sizeAtLeast s 16 &&! dataAt s 1 (· == 0x0D) &&!
        dataAt s 2 (· == 0x21)) = .ok b ∧ _ := bindOk_iff.1 h
    cases b with
    | false => simp [pure_eq_ok] at h
    | true =>
      rw [nrt_iff, andThen_true, andThen_true, sizeAtLeast_true, dataAt_eq] at hb
      obtain ⟨h1, h2, h3, h4⟩ := hb
      rw [if_pos rfl] at h
      obtain ⟨l, hl, h⟩ := bindOk_iff.1 h
      dsimp only at h
      split at h
      · rename_i hlen
        obtain ⟨l', hl', h⟩ := bindOk_iff.1 h
        have h5 : 16 + l.toNat * 5 + l'.toNat * 5 ≤ s.data.length := by
          injection h with h; simpa using h
        obtain ⟨v, hv⟩ := third (s := s) (by omega)
        obtain ⟨hn, r, hr⟩ := (uint14_iff h7).1 ⟨l, hl, rfl⟩
        obtain ⟨hm, r', hr'⟩ := (uint14_iff h7).1 ⟨l', hl', rfl⟩
        have hrl := congrArg List.length hr
        have hrl' := congrArg List.length hr'
        simp only [List.length_drop, List.length_append, le7_length] at hrl hrl'
        refine ⟨h1, h2, h3, h4, v, hv, l.toNat, r.take (5 * l.toNat), l'.toNat, r'.take (5 * l'.toNat),
          r'.drop (5 * l'.toNat), ?_, hn, hm, by simp; omega, by simp; omega⟩
        rw [List.append_assoc _ (List.take (5 * l'.toNat) r'), List.take_append_drop, hr, List.append_assoc,
          List.append_assoc, ← hr', show 16 + l.toNat * 5 - 2 = 12 + (2 + 5 * l.toNat) by omega, ← List.drop_drop, hr,
          ← List.drop_drop, List.drop_left' (le7_length _ _), List.take_append_drop]
      · simp [pure_eq_ok] at h
  · rintro ⟨h1, h2, h3, h4, v, hv, n, e, m, d, r, hp, hn, hm, he, hd⟩
    rw [show (isNonRealtime s &&! sizeAtLeast s 16 &&! dataAt s 1 (· == 0x0D) &&! dataAt s 2 (· == 0x21)) = .ok true by
      rw [nrt_iff, andThen_true, andThen_true, sizeAtLeast_true, dataAt_eq]; exact ⟨h1, h2, h3, h4⟩]
    have hs : s.data = s.data.take 12 ++ (le7 2 n ++ (e ++ (le7 2 m ++ (d ++ r)))) := by
      conv_lhs => rw [← List.take_append_drop 12 s.data, hp]
      simp only [List.append_assoc]
    have hlen := congrArg List.length hs
    have ht : (s.data.take 12).length = 12 := by simp; omega
    simp only [List.length_append, le7_length, ht] at hlen
    obtain ⟨l, hl, rfl⟩ := uint14_append h7 hs ht hn
    obtain ⟨l', hl', rfl⟩ := uint14_append (pos := 16 + l.toNat * 5 - 2) (a := s.data.take 12 ++ le7 2 l.toNat ++ e)
      (b := d ++ r) h7 (by rw [List.append_assoc, List.append_assoc]; exact hs)
      (by simp only [List.length_append, le7_length, ht]; omega) hm
    simp only [ok_bind, if_true, hl]
    rw [if_pos (by omega), hl']
    simp only [ok_bind, pure_eq_ok]
    rw [decide_eq_true (by omega)]

example := C55_profile_inquiry_reply ⟨0x7E0000, [0x10, 0x0D, 0x21, 2, 1, 2, 3, 4, 5, 6, 7, 8, 1, 0, 0x7e, 1, 2, 3, 4, 0, 0]⟩ (by decide)

theorem propertyData_subs (b : Byte) : (decide (b ≥ 0x34) && (decide (b ≤ 0x39) || b == 0x3F)) = true ↔
    b ∈ [(0x34 : Byte), 0x35, 0x36, 0x37, 0x38, 0x39, 0x3F] := by revert b; decide +kernel

/-- C55: property data messages in general. -/
theorem C55_property_data (s : Sysex) (h7 : ∀ b ∈ s.data, b.toNat < 128) : PropertyDataView.validate s = .ok true ↔
    CIMessage [0x34, 0x35, 0x36, 0x37, 0x38, 0x39, 0x3F] PropertyData s := by
  rw [general (n := 21) (by decide) propertyData_subs (by
    rintro v p ⟨n, h, c, t, d, r, rfl, -⟩; simp [le7_length]; omega)]
  unfold PropertyDataView.validate
  constructor
  · intro h
    obtain ⟨b, hb, h⟩ : ∃ b, (isNonRealtime s &&! sizeAtLeast s 21 &&! dataAt s 1 (· == 0x0D) &&!
        dataAt s 2 (fun v => decide (v ≥ 0x34))) = .ok b ∧ _ := bindOk_iff.1 h
    cases b with
    | false => simp [pure_eq_ok] at h
    | true =>
      rw [nrt_iff, andThen_true, andThen_true, sizeAtLeast_true, dataAt_eq, dataAt_true] at hb
      obtain ⟨h1, h2, h3, x, hx, h4⟩ := hb
      rw [if_pos rfl] at h
      obtain ⟨b, hb, h⟩ : ∃ b, (dataAt s 2 (fun v => decide (v ≤ 0x39)) ||! dataAt s 2 (· == 0x3F)) = .ok b ∧ _ :=
        bindOk_iff.1 h
      cases b with
      | false => simp [pure_eq_ok] at h
      | true =>
        rw [if_pos rfl] at h
        have hsub : dataAt s 2 (fun b => decide (b ≥ 0x34) && (decide (b ≤ 0x39) || b == 0x3F)) = .ok true := by
          rw [dataAt_true]
          refine ⟨x, hx, ?_⟩
          rw [orElse_true, dataAt_true, dataAt_eq] at hb
          rcases hb with ⟨y, hy, h5⟩ | ⟨-, h5⟩
          · rw [hx] at hy; injection hy with e; subst e
            simp only [h4, h5, Bool.true_or, Bool.and_self]
          · rw [hx] at h5; injection h5 with e; subst e
            simp only [h4, beq_self_eq_true, Bool.or_true, Bool.and_self]
        obtain ⟨l, hl, h⟩ := bindOk_iff.1 h
        dsimp only at h
        split at h
        · simp [pure_eq_ok] at h
        · rename_i hlen
          obtain ⟨c, hc, h⟩ := bindOk_iff.1 h
          obtain ⟨t, ht, h⟩ := bindOk_iff.1 h
          obtain ⟨d, hd, h⟩ := bindOk_iff.1 h
          split at h
          · simp [pure_eq_ok] at h
          rename_i r1
          split at h
          · simp [pure_eq_ok] at h
          rename_i r2
          split at h
          · simp [pure_eq_ok] at h
          rename_i r3
          have h5 : 21 + l.toNat + d.toNat ≤ s.data.length := by injection h with h; simpa using h
          obtain ⟨v, hv⟩ := third (s := s) (by omega)
          obtain ⟨hln, rl, hrl⟩ := (uint14_iff h7).1 ⟨l, hl, rfl⟩
          obtain ⟨hcn, rc, hrc⟩ := (uint14_iff h7).1 ⟨c, hc, rfl⟩
          obtain ⟨htn, rt, hrt⟩ := (uint14_iff h7).1 ⟨t, ht, rfl⟩
          obtain ⟨hdn, rd, hrd⟩ := (uint14_iff h7).1 ⟨d, hd, rfl⟩
          have e1 := congrArg List.length hrl
          have e4 := congrArg List.length hrd
          simp only [List.length_drop, List.length_append, le7_length] at e1 e4
          have L1 : (rl.take l.toNat).length = l.toNat := by simp; omega
          have L4 : (rd.take d.toNat).length = d.toNat := by simp; omega
          have h12 : 12 < s.data.length := by omega
          refine ⟨h1, h2, h3, hsub, v, hv, s.data[12], rl.take l.toNat, c.toNat, t.toNat, rd.take d.toNat,
            rd.drop d.toNat, ?_, by rw [L1]; exact hln, hcn, htn, by rw [L4]; exact hdn, by omega, ?_, ?_⟩
          · rw [L1, L4, List.append_assoc _ (List.take d.toNat rd), List.take_append_drop, List.append_assoc _ _ rd,
              ← hrd, List.append_assoc _ (le7 2 t.toNat),
              show le7 2 t.toNat ++ List.drop (19 + l.toNat) s.data = List.drop (17 + l.toNat) s.data by
                rw [show 19 + l.toNat = 17 + l.toNat + 2 by omega, ← List.drop_drop, hrt,
                  List.drop_left' (le7_length _ _)],
              List.append_assoc _ (le7 2 c.toNat),
              show le7 2 c.toNat ++ List.drop (17 + l.toNat) s.data = List.drop (15 + l.toNat) s.data by
                rw [show 17 + l.toNat = 15 + l.toNat + 2 by omega, ← List.drop_drop, hrc,
                  List.drop_left' (le7_length _ _)],
              show List.drop (15 + l.toNat) s.data = rl.drop l.toNat by
                rw [show 15 + l.toNat = 13 + (2 + l.toNat) by omega, ← List.drop_drop, hrl, ← List.drop_drop,
                  List.drop_left' (le7_length _ _)],
              List.append_assoc _ (List.take l.toNat rl), List.take_append_drop, List.append_assoc, ← hrl]
            exact List.drop_eq_getElem_cons h12
          · by_cases h0 : l.toNat = 0
            · left; exact List.eq_nil_of_length_eq_zero (by rw [L1]; exact h0)
            · right; omega
          · by_cases h0 : d.toNat = 0
            · left; exact List.eq_nil_of_length_eq_zero (by rw [L4]; exact h0)
            · right; omega
  · rintro ⟨h1, h2, h3, h4, v, hv, id, h, c, t, d, r, hp, hh, hc, ht, hd, r1, r2, r3⟩
    rw [dataAt_true] at h4
    obtain ⟨x, hx, h4⟩ := h4
    simp only [Bool.and_eq_true, Bool.or_eq_true] at h4
    rw [show (isNonRealtime s &&! sizeAtLeast s 21 &&! dataAt s 1 (· == 0x0D) &&!
        dataAt s 2 (fun v => decide (v ≥ 0x34))) = .ok true by
      rw [nrt_iff, andThen_true, andThen_true, sizeAtLeast_true, dataAt_eq, dataAt_true]
      exact ⟨h1, h2, h3, x, hx, h4.1⟩]
    rw [show (dataAt s 2 (fun v => decide (v ≤ 0x39)) ||! dataAt s 2 (· == 0x3F)) = .ok true by
      unfold dataAt
      rw [index_iff.2 hx]
      rcases h4.2 with h5 | h5
      · simp only [Except.map, h5, orElse]
      · by_cases h6 : x ≤ 0x39 <;> simp only [Except.map, h5, h6, orElse, decide_true, decide_false]]
    have hs : s.data = s.data.take 12 ++ [id] ++ (le7 2 h.length ++ (h ++ (le7 2 c ++ (le7 2 t ++ (le7 2 d.length ++
        (d ++ r)))))) := by
      conv_lhs => rw [← List.take_append_drop 12 s.data, hp]
      simp only [List.append_assoc]
    have hlen := congrArg List.length hs
    have htk : (s.data.take 12).length = 12 := by simp; omega
    simp only [List.length_append, le7_length, htk, List.length_singleton] at hlen
    obtain ⟨l1, e1, k1⟩ := uint14_append (pos := 13) h7 hs (by simp; omega) hh
    obtain ⟨l2, e2, k2⟩ := uint14_append (pos := 15 + h.length) (a := s.data.take 12 ++ [id] ++ le7 2 h.length ++ h)
      h7 (by rw [List.append_assoc, List.append_assoc _ (le7 2 h.length)]; exact hs)
      (by simp only [List.length_append, le7_length, htk, List.length_singleton]) hc
    obtain ⟨l3, e3, k3⟩ := uint14_append (pos := 17 + h.length)
      (a := s.data.take 12 ++ [id] ++ le7 2 h.length ++ h ++ le7 2 c)
      h7 (by rw [List.append_assoc, List.append_assoc _ h, List.append_assoc _ (le7 2 h.length)]; exact hs)
      (by simp only [List.length_append, le7_length, htk, List.length_singleton]; omega) ht
    obtain ⟨l4, e4, k4⟩ := uint14_append (pos := 19 + h.length)
      (a := s.data.take 12 ++ [id] ++ le7 2 h.length ++ h ++ le7 2 c ++ le7 2 t)
      h7 (by rw [List.append_assoc, List.append_assoc _ (le7 2 c), List.append_assoc _ h,
        List.append_assoc _ (le7 2 h.length)]; exact hs)
      (by simp only [List.length_append, le7_length, htk, List.length_singleton]; omega) hd
    simp only [ok_bind, if_true, e1, k1]
    rw [if_neg (by omega)]
    simp only [ok_bind, e2, e3, e4, k2, k3, k4, pure_eq_ok]
    rw [if_neg (by omega), if_neg (by
      rintro ⟨h0, h5⟩
      rcases r2 with r2 | r2
      · rw [r2] at h0; exact h0 rfl
      · omega), if_neg (by
      rintro ⟨h0, h5⟩
      rcases r3 with r3 | r3
      · rw [r3] at h0; exact h0 rfl
      · omega), decide_eq_true (by omega)]

example := C55_property_data ⟨0x7E0000, [0x10, 0x0D, 0x35, 2, 1, 2, 3, 4, 5, 6, 7, 8, 9, 2, 0, 0x7b, 0x7d, 2, 0, 1, 0, 3, 0, 1, 2, 3]⟩ (by decide)

theorem two_iff {s : Sysex} {a b : Byte} : (dataAt s 2 (· == a) ||! dataAt s 2 (· == b)) = .ok true ↔
    s.data[2]? = some a ∨ s.data[2]? = some b := by
  rw [orElse_true, dataAt_eq, dataAt_eq]
  constructor
  · rintro (h | ⟨-, h⟩)
    · exact .inl h
    · exact .inr h
  · rintro (h | h)
    · exact .inl h
    · by_cases e : b = a
      · left; rw [h, e]
      · right
        refine ⟨?_, h⟩
        unfold dataAt
        rw [index_iff.2 h]
        simp [Except.map, e]

theorem narrow {s : Sysex} {subs subs' : List Byte} {P : Byte → List Byte → Prop} (hs : ∀ b ∈ subs', b ∈ subs) :
    CIMessage subs' P s ↔ CIMessage subs P s ∧ ∃ b ∈ subs', s.data[2]? = some b := by
  rw [ciMessage_iff, ciMessage_iff]
  constructor
  · rintro ⟨h1, h2, h3, sub, v, h4, h5, h6⟩
    exact ⟨⟨h1, h2, h3, sub, v, h4, hs _ h5, h6⟩, sub, h5, h4⟩
  · rintro ⟨⟨h1, h2, h3, sub, v, h4, -, h6⟩, b, hb, h5⟩
    rw [h4] at h5; injection h5 with e; subst e
    exact ⟨h1, h2, h3, sub, v, h4, hb, h6⟩

/-- C55: get property data, inquiry and reply. -/
theorem C55_get_property_data (s : Sysex) (h7 : ∀ b ∈ s.data, b.toNat < 128) :
    GetPropertyDataView.validate s = .ok true ↔ CIMessage [0x34, 0x35] PropertyData s := by
  rw [narrow (subs := [0x34, 0x35, 0x36, 0x37, 0x38, 0x39, 0x3F]) (by decide), GetPropertyDataView.validate,
    andThen_true, C55_property_data s h7, two_iff]
  simp

example := C55_get_property_data ⟨0x7E0000, [0x10, 0x0D, 0x35, 2, 1, 2, 3, 4, 5, 6, 7, 8, 9, 2, 0, 0x7b, 0x7d, 2, 0, 1, 0, 3, 0, 1, 2, 3]⟩ (by decide)

/-- C55: set property data, inquiry and reply. -/
theorem C55_set_property_data (s : Sysex) (h7 : ∀ b ∈ s.data, b.toNat < 128) :
    SetPropertyDataView.validate s = .ok true ↔ CIMessage [0x36, 0x37] PropertyData s := by
  rw [narrow (subs := [0x34, 0x35, 0x36, 0x37, 0x38, 0x39, 0x3F]) (by decide), SetPropertyDataView.validate,
    andThen_true, C55_property_data s h7, two_iff]
  simp

example := C55_set_property_data ⟨0x7E0000, [0x10, 0x0D, 0x36, 2, 1, 2, 3, 4, 5, 6, 7, 8, 9, 2, 0, 0x7b, 0x7d, 2, 0, 1, 0, 3, 0, 1, 2, 3]⟩ (by decide)

/-- C55: subscription, inquiry and reply. -/
theorem C55_subscription (s : Sysex) (h7 : ∀ b ∈ s.data, b.toNat < 128) :
    SubscriptionView.validate s = .ok true ↔ CIMessage [0x38, 0x39] PropertyData s := by
  rw [narrow (subs := [0x34, 0x35, 0x36, 0x37, 0x38, 0x39, 0x3F]) (by decide), SubscriptionView.validate,
    andThen_true, C55_property_data s h7, two_iff]
  simp

example := C55_subscription ⟨0x7E0000, [0x10, 0x0D, 0x38, 2, 1, 2, 3, 4, 5, 6, 7, 8, 9, 2, 0, 0x7b, 0x7d, 2, 0, 1, 0, 3, 0, 1, 2, 3]⟩ (by decide)

/-- C55: notify. -/
theorem C55_notify (s : Sysex) (h7 : ∀ b ∈ s.data, b.toNat < 128) :
    NotifyView.validate s = .ok true ↔ CIMessage [0x3F] PropertyData s := by
  rw [narrow (subs := [0x34, 0x35, 0x36, 0x37, 0x38, 0x39, 0x3F]) (by decide), NotifyView.validate,
    andThen_true, C55_property_data s h7, dataAt_eq]
  simp

/-- C55: every view class accepts exactly the messages with one of its subtypes and the content listed in
`Spec.contents`. -/
theorem C55_views : List.Forall₂ (fun (v : Spec.ViewClass) c => v.name = c.1 ∧ v.subtypes = c.2.1 ∧
    ∀ s : Sysex, (∀ b ∈ s.data, b.toNat < 128) → (v.validate s = .ok true ↔ CIMessage c.2.1 c.2.2 s))
    Spec.views Spec.contents := by
  unfold Spec.views Spec.contents
  repeat' first
    | exact .nil
    | refine List.Forall₂.cons ⟨rfl, rfl, ?_⟩ ?_
  · exact fun s _ => C55_discovery_inquiry s
  · exact fun s _ => C55_discovery_reply s
  · exact fun s _ => C55_endpoint_information_inquiry s
  · exact C55_endpoint_information_reply
  · exact C55_ack
  · exact fun s _ => C55_invalidate_muid s
  · exact C55_nak
  · exact fun s _ => C55_profile_inquiry s
  · exact C55_profile_inquiry_reply
  · exact fun s _ => C55_profile_id s
  · exact fun s _ => C55_profile_destination s
  · exact fun s _ => C55_profile_details_inquiry s
  · exact C55_profile_details_reply
  · exact C55_profile_specific_data
  · exact fun s _ => C55_property_exchange_capabilities s
  · exact C55_property_data
  · exact C55_get_property_data
  · exact C55_set_property_data
  · exact C55_subscription
  · exact C55_notify
  · exact fun s _ => C55_process_inquiry_capabilities_reply s
  · exact fun s _ => C55_midi_message_report_inquiry s
  · exact fun s _ => C55_midi_message_report_reply s

/-! Concrete messages that meet the descriptions, and near misses. -/

/-- A property data message in the first of two chunks, with a header of two and data of three bytes. -/
example : CIMessage [0x34, 0x35] PropertyData
    ⟨0x7E0000, [0x7F, 0x0D, 0x35, 2, 1, 2, 3, 4, 5, 6, 7, 8, 9, 2, 0, 0x7B, 0x7D, 2, 0, 1, 0, 3, 0, 1, 2, 3]⟩ :=
  ⟨rfl, 0x7F, 0x35, 2, [1, 2, 3, 4, 5, 6, 7, 8], [9, 2, 0, 0x7B, 0x7D, 2, 0, 1, 0, 3, 0, 1, 2, 3], rfl, by decide, rfl,
    9, [0x7B, 0x7D], 2, 1, [1, 2, 3], [], by decide, by decide, by decide, by decide, by decide, by decide, by decide,
    by decide⟩

example : GetPropertyDataView.validate
    ⟨0x7E0000, [0x7F, 0x0D, 0x35, 2, 1, 2, 3, 4, 5, 6, 7, 8, 9, 2, 0, 0x7B, 0x7D, 2, 0, 1, 0, 3, 0, 1, 2, 3]⟩ =
    .ok true := by rfl

/-- The same in a third chunk of two, with a header in the second chunk, with data but chunk number 0, and with one byte
missing. -/
example : [[2, 0, 0x7B, 0x7D, 2, 0, 3, 0, 3, 0, 1, 2, 3], [2, 0, 0x7B, 0x7D, 2, 0, 2, 0, 3, 0, 1, 2, 3],
    [2, 0, 0x7B, 0x7D, 2, 0, 0, 0, 3, 0, 1, 2, 3], [2, 0, 0x7B, 0x7D, 2, 0, 1, 0, 3, 0, 1, 2]].map
      (fun p : List Byte => GetPropertyDataView.validate
        ⟨0x7E0000, [0x7F, 0x0D, 0x35, 2, 1, 2, 3, 4, 5, 6, 7, 8, 9] ++ p⟩) =
    [.ok false, .ok false, .ok false, .ok false] := by rfl

/-- A profile inquiry reply with one enabled and no disabled profile. -/
example : CIMessage [0x21] TwoProfileLists
    ⟨0x7E0000, [0x7F, 0x0D, 0x21, 2, 1, 2, 3, 4, 5, 6, 7, 8, 1, 0, 0x7E, 1, 2, 3, 4, 0, 0]⟩ :=
  ⟨rfl, 0x7F, 0x21, 2, [1, 2, 3, 4, 5, 6, 7, 8], [1, 0, 0x7E, 1, 2, 3, 4, 0, 0], rfl, by decide, rfl,
    1, [0x7E, 1, 2, 3, 4], 0, [], [], by decide, by decide, by decide, rfl, rfl⟩

/-- A discovery inquiry of version 2 without the output path id is incomplete, one of version 1 is complete. -/
example : [(1 : Byte), 2].map (fun v => DiscoveryInquiryView.validate
    ⟨0x7E0000, [0x7F, 0x0D, 0x70, v] ++ List.replicate 24 0⟩) = [.ok true, .ok false] := by rfl

end CI

namespace UniversalSysex

theorem typeOf_identity {s : Sysex} : (typeOf s).map (· == 0x7E06) = .ok true ↔
    s.manufacturerID = universalNonRealtime ∧ s.data[1]? = some 0x06 := by
  constructor
  · intro h
    obtain ⟨t, h1, h2⟩ := map_true.1 h
    unfold typeOf at h1
    by_cases hu : isUniversal s = true
    · rw [if_pos hu] at h1
      cases hi : index s.data 1 with
      | error e => rw [hi] at h1; cases h1
      | ok d =>
        rw [hi] at h1
        injection h1 with h1
        subst h1
        simp only [isUniversal, Bool.and_eq_true, Bool.or_eq_true, beq_iff_eq] at hu
        rcases hu.1 with e | e
        · exfalso
          rw [e] at h2
          clear hi hu e h
          revert h2; revert d; decide +kernel
        · refine ⟨e, ?_⟩
          rw [e] at h2
          have : d = 0x06 := by clear hi hu e h; revert h2; revert d; decide +kernel
          rw [← this]; exact index_iff.1 hi
    · rw [if_neg hu] at h1
      injection h1 with h1
      subst h1
      exact absurd h2 (by decide)
  · rintro ⟨h1, h2⟩
    unfold typeOf isUniversal
    have : 1 < s.data.length := by
      by_contra h; rw [List.getElem?_eq_none (by omega)] at h2; cases h2
    rw [h1, if_pos (by simp; omega), index_iff.2 h2]
    rfl

/-- C55: identity request. -/
theorem C55_identity_request (s : Sysex) : isIdentityRequest s = .ok true ↔
    s.manufacturerID = 0x7E0000 ∧ ∃ dev rest, s.data = [dev, 0x06, 0x01] ++ rest := by
  unfold isIdentityRequest
  rw [andThen_true, typeOf_identity]
  constructor
  · rintro ⟨⟨h1, h2⟩, h3⟩
    rw [CI.subtype_true (by decide) h1, CI.dataAt_eq] at h3
    refine ⟨h1, ?_⟩
    match hd : s.data with
    | [] => rw [hd] at h3; cases h3
    | [_] => rw [hd] at h3; cases h3
    | [_, _] => rw [hd] at h3; cases h3
    | a :: b :: c :: r =>
      rw [hd] at h2 h3
      injection h2 with h2; injection h3 with h3
      exact ⟨a, r, by rw [h2, h3]; rfl⟩
  · rintro ⟨h1, dev, rest, hd⟩
    refine ⟨⟨h1, by rw [hd]; rfl⟩, ?_⟩
    rw [CI.subtype_true (by decide) h1, CI.dataAt_eq, hd]
    rfl

/-- C55: identity reply, with a manufacturer id of one byte (not 0) or of three bytes. -/
theorem C55_identity_reply (s : Sysex) : IdentityReplyView.validate s = .ok true ↔
    s.manufacturerID = 0x7E0000 ∧ ∃ dev m rest, s.data = [dev, 0x06, 0x02, m] ++ rest ∧
      ((m ≠ 0 ∧ rest.length = 8) ∨ rest.length = 10) := by
  unfold IdentityReplyView.validate
  rw [andThen_true, andThen_true, orElse_true, andThen_true, typeOf_identity, dataAt_true]
  constructor
  · rintro ⟨⟨h1, h2⟩, h3, h4⟩
    rw [CI.subtype_true (by decide) h1, CI.dataAt_eq] at h3
    refine ⟨h1, ?_⟩
    match hd : s.data with
    | [] => rw [hd] at h3; cases h3
    | [_] => rw [hd] at h3; cases h3
    | [_, _] => rw [hd] at h3; cases h3
    | [_, _, _] => rw [hd] at h4; simp at h4
    | a :: b :: c :: m :: r =>
      rw [hd] at h2 h3 h4
      injection h2 with h2; injection h3 with h3
      refine ⟨a, m, r, by rw [h2, h3]; rfl, ?_⟩
      rcases h4 with ⟨h4, b', h5, h6⟩ | ⟨-, h4⟩
      · injection h5 with h5
        subst h5
        left
        simpa [and_comm] using And.intro h4 h6
      · right; simpa using h4
  · rintro ⟨h1, dev, m, rest, hd, h⟩
    refine ⟨⟨h1, by rw [hd]; rfl⟩, ?_, ?_⟩
    · rw [CI.subtype_true (by decide) h1, CI.dataAt_eq, hd]
      rfl
    · have hl : s.data.length = 4 + rest.length := by rw [hd]; simp; omega
      rcases h with ⟨h, h'⟩ | h
      · left
        exact ⟨by simp; omega, m, by rw [hd]; rfl, by simpa using h⟩
      · right
        rw [decide_eq_false (by omega), decide_eq_true (by omega)]
        exact ⟨rfl, rfl⟩

/-- C55: the free function agrees with the view. -/
theorem C55_is_identity_reply (s : Sysex) : isIdentityReply s = .ok true ↔
    s.manufacturerID = 0x7E0000 ∧ ∃ dev m rest, s.data = [dev, 0x06, 0x02, m] ++ rest ∧
      ((m ≠ 0 ∧ rest.length = 8) ∨ rest.length = 10) := C55_identity_reply s

example : IdentityReplyView.validate ⟨0x7E0000, [0x10, 6, 2, 0, 0x21, 9, 1, 0, 2, 0, 3, 0, 0, 0]⟩ = .ok true := by rfl

end UniversalSysex
end Midi
