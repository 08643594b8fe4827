import Verif.Props.Said
import Verif.Props.ViewsExact
import Verif.Spec.SaidLost
import Verif.Props.Damage

/-!
# C108: MIDI-CI messages with bytes missing
-/

namespace Midi
open Spec UniversalSysex CI

/-! ## What is understood was accepted -/

theorem asView_accepted {val : Sysex → Except Fault Bool} {m w : Sysex} (h : CI.asView val m = .ok (some w)) : val m = .ok true := by
  unfold CI.asView at h
  cases e : val m with
  | error f => rw [e] at h; cases h
  | ok b =>
    rw [e, ok_bind] at h
    cases b with
    | false => cases h
    | true => rfl

theorem reading_accepted {val : Sysex → Except Fault Bool} {m : Sysex} {read : Sysex → Except Fault Content} {c : Content}
    (h : reading val m read = .ok (some c)) : val m = .ok true := by
  unfold reading at h
  cases e : CI.asView val m with
  | error f => rw [e] at h; cases h
  | ok o =>
    rw [e, ok_bind] at h
    cases o with
    | none => cases h
    | some w => exact asView_accepted e

theorem understand_some {m : Sysex} {y : Said} (h : understand m = .ok (some y)) :
    View.validate m = .ok true ∧ ∃ st c, UniversalSysex.View.subtype m = .ok st ∧ readContent st.toNat m = .ok (some c) := by
  unfold understand at h
  cases e : CI.asView View.validate m with
  | error f => rw [e] at h; cases h
  | ok o =>
    rw [e, ok_bind] at h
    cases o with
    | none => cases h
    | some w =>
      have e1 := asView_accepted e
      obtain ⟨b, a1, a2, -⟩ := C39_capability_inquiry m
      rw [e1] at a1
      rw [← Except.ok.inj a1, e] at a2
      obtain rfl := Option.some.inj (Except.ok.inj a2)
      refine ⟨e1, ?_⟩
      dsimp only at h
      cases e2 : UniversalSysex.View.subtype w with
      | error f => rw [e2] at h; cases h
      | ok st =>
        rw [e2, ok_bind] at h
        cases e3 : readContent st.toNat w with
        | error f => rw [e3] at h; cases h
        | ok o =>
          rw [e3, ok_bind] at h
          cases o with
          | none => cases h
          | some c => exact ⟨st, c, rfl, e3⟩

/-! ## Length fields -/

theorem le7_inj (k : Nat) : ∀ {n n' : Nat}, n < 128 ^ k → n' < 128 ^ k → le7 k n' = le7 k n → n' = n := by
  induction k with
  | zero => intro n n' h h' _; simp at h h'; omega
  | succ k ih =>
    intro n n' h h' e
    simp only [le7, List.cons.injEq] at e
    obtain ⟨e1, e2⟩ := e
    rw [Nat.pow_succ] at h h'
    have e3 := ih (by omega) (by omega) e2
    have := congrArg BitVec.toNat e1
    simp only [BitVec.toNat_ofNat] at this
    omega

/-- A number in the part that both messages have in common. -/
theorem common_number {d D A A' R R' : List Byte} {k n n' f : Nat} (hp : d.take f <+: D) (hd : d = A' ++ (le7 k n' ++ R'))
    (hD : D = A ++ (le7 k n ++ R)) (hA : A'.length = A.length) (hf : A.length + k ≤ f) (hn : n < 128 ^ k) (hn' : n' < 128 ^ k) :
    n' = n ∧ A' = A := by
  have e : d.take (A.length + k) = D.take (A.length + k) := by
    have h1 : d.take (A.length + k) <+: D := by
      have : d.take (A.length + k) <+: d.take f := by
        rw [List.prefix_take_iff]
        exact ⟨List.take_prefix _ _, by rw [List.length_take]; omega⟩
      exact this.trans hp
    have h2 := List.prefix_iff_eq_take.1 h1
    rw [h2]
    congr 1
    rw [List.length_take, hd, List.length_append, List.length_append, le7_length]
    omega
  have t1 : d.take (A.length + k) = A' ++ le7 k n' := by
    rw [hd, ← List.append_assoc, List.take_left']
    rw [List.length_append, le7_length, hA]
  have t2 : D.take (A.length + k) = A ++ le7 k n := by
    rw [hD, ← List.append_assoc, List.take_left']
    rw [List.length_append, le7_length]
  rw [t1, t2] at e
  obtain ⟨e1, e2⟩ := List.append_inj e hA
  exact ⟨le7_inj k hn hn' e2, e1⟩

/-! ## What is accepted is complete -/

theorem ci_start {m : Sysex} {v st dev : Byte} {src dst : Word} {payload d : List Byte} {f : Nat} (hf : 4 ≤ f)
    (hp : d.take f <+: m.data) (hm : m.data = ciHeader v st dev src dst ++ payload) (hd : 12 ≤ d.length) :
    ∃ r, d = [dev, 0x0D, st, v] ++ r := by
  refine ⟨d.drop 4, ?_⟩
  have h1 : d.take 4 <+: m.data := by
    refine List.IsPrefix.trans ?_ hp
    rw [List.prefix_take_iff]
    exact ⟨List.take_prefix _ _, by rw [List.length_take]; omega⟩
  have h2 := List.prefix_iff_eq_take.1 h1
  rw [List.length_take, Nat.min_eq_left (by omega), hm] at h2
  conv_lhs => rw [← List.take_append_drop 4 d]
  rw [h2]
  rfl

theorem atLeast_length {subs : List Byte} {n : Nat} {m : Sysex} (h : CIMessage subs (AtLeast n) m) : 12 + n ≤ m.data.length := by
  obtain ⟨-, dev, sub, v, mu, pl, e, -, h8, hn⟩ := h
  unfold AtLeast at hn
  rw [e]
  simp only [List.length_append, List.length_cons, List.length_nil]
  omega

theorem atLeastV_length {subs : List Byte} {n k : Nat} {m : Sysex} (h : CIMessage subs (AtLeastV n k) m) {dev st v : Byte} {r : List Byte}
    (hm : m.data = [dev, 0x0D, st, v] ++ r) : 12 + n ≤ m.data.length ∧ (2 ≤ v.toNat → 12 + k ≤ m.data.length) := by
  obtain ⟨-, dev', sub, v', mu, pl, e, -, h8, hn, hk⟩ := h
  obtain rfl : v' = v := by
    have := e.symm.trans hm
    simp only [List.cons_append, List.nil_append, List.cons.injEq] at this
    exact this.2.2.2.1
  have : m.data.length = 12 + pl.length := by
    rw [e]
    simp only [List.length_append, List.length_cons, List.length_nil]
    omega
  omega

theorem counted_length {subs : List Byte} {n k f : Nat} {m : Sysex} (h : CIMessage subs (Counted n k) m) {A data D : List Byte}
    (hp : m.data.take f <+: D) (hD : D = A ++ (le7 k data.length ++ data)) (hA : A.length = 12 + n) (hf : 12 + n + k ≤ f)
    (hl : data.length < 128 ^ k) : D.length ≤ m.data.length := by
  obtain ⟨-, dev, sub, v, mu, pl, e, -, h8, fixed, data', rest, e2, h9, h10⟩ := h
  have e3 : m.data = (([dev, 0x0D, sub, v] ++ mu) ++ fixed) ++ (le7 k data'.length ++ (data' ++ rest)) := by
    rw [e, e2]
    simp only [List.append_assoc]
  have hA' : (([dev, 0x0D, sub, v] ++ mu) ++ fixed).length = A.length := by
    rw [hA]
    simp only [List.length_append, List.length_cons, List.length_nil]
    omega
  obtain ⟨h11, -⟩ := common_number hp e3 hD hA' (by omega) hl h10
  rw [e3, hD]
  simp only [List.length_append, le7_length] at hA' ⊢
  omega

theorem lists_length {subs : List Byte} {f : Nat} {m : Sysex} (h : CIMessage subs TwoProfileLists m) {A e d D : List Byte} {n k : Nat}
    (hp : m.data.take f <+: D) (hD : D = A ++ (le7 2 n ++ (e ++ (le7 2 k ++ d)))) (hA : A.length = 12) (he : e.length = 5 * n)
    (hd : d.length = 5 * k) (hf : 16 + 5 * n ≤ f) (hn : n < 128 ^ 2) (hk : k < 128 ^ 2) : D.length ≤ m.data.length := by
  obtain ⟨-, dev, sub, v, mu, pl, e1, -, h8, n', en, k', dis, rest, e2, h1, h2, h3, h4⟩ := h
  have e3 : m.data = ([dev, 0x0D, sub, v] ++ mu) ++ (le7 2 n' ++ (en ++ (le7 2 k' ++ (dis ++ rest)))) := by
    rw [e1, e2]
    simp only [List.append_assoc]
  have hA' : ([dev, 0x0D, sub, v] ++ mu).length = A.length := by
    rw [hA]
    simp only [List.length_append, List.length_cons, List.length_nil]
    omega
  obtain ⟨rfl, -⟩ := common_number hp e3 hD hA' (by omega) hn h1
  have e4 : m.data = (([dev, 0x0D, sub, v] ++ mu) ++ le7 2 n' ++ en) ++ (le7 2 k' ++ (dis ++ rest)) := by
    rw [e3]
    simp only [List.append_assoc]
  have e5 : D = (A ++ le7 2 n' ++ e) ++ (le7 2 k ++ d) := by
    rw [hD]
    simp only [List.append_assoc]
  have hB : (([dev, 0x0D, sub, v] ++ mu) ++ le7 2 n' ++ en).length = (A ++ le7 2 n' ++ e).length := by
    simp only [List.length_append, le7_length] at hA' ⊢
    omega
  obtain ⟨rfl, -⟩ := common_number hp e4 e5 hB (by simp only [List.length_append, le7_length]; omega) hk h2
  rw [e3, hD]
  simp only [List.length_append, le7_length] at hA' ⊢
  omega

theorem property_length {subs : List Byte} {f : Nat} {m : Sysex} (h : CIMessage subs PropertyData m) {A hdr c D : List Byte} {n t : Nat}
    (hp : m.data.take f <+: D) (hD : D = A ++ (le7 2 hdr.length ++ (hdr ++ (le7 2 n ++ (le7 2 t ++ (le7 2 c.length ++ c))))))
    (hA : A.length = 13) (hf : 21 + hdr.length ≤ f) (hh : hdr.length < 128 ^ 2) (hc : c.length < 128 ^ 2) : D.length ≤ m.data.length := by
  obtain ⟨-, dev, sub, v, mu, pl, e1, -, h8, id, hdr', n', t', c', rest, e2, h1, h2, h3, h4, -⟩ := h
  have e3 : m.data = ([dev, 0x0D, sub, v] ++ mu ++ [id]) ++ (le7 2 hdr'.length ++ (hdr' ++ (le7 2 n' ++ (le7 2 t' ++ (le7 2 c'.length ++
      (c' ++ rest)))))) := by
    rw [e1, e2]
    simp only [List.append_assoc]
  have hA' : ([dev, 0x0D, sub, v] ++ mu ++ [id]).length = A.length := by
    rw [hA]
    simp only [List.length_append, List.length_cons, List.length_nil]
    omega
  obtain ⟨h5, -⟩ := common_number hp e3 hD hA' (by omega) hh h1
  have e4 : m.data = ([dev, 0x0D, sub, v] ++ mu ++ [id] ++ le7 2 hdr'.length ++ hdr' ++ le7 2 n' ++ le7 2 t') ++ (le7 2 c'.length ++
      (c' ++ rest)) := by
    rw [e3]
    simp only [List.append_assoc]
  have e5 : D = (A ++ le7 2 hdr.length ++ hdr ++ le7 2 n ++ le7 2 t) ++ (le7 2 c.length ++ c) := by
    rw [hD]
    simp only [List.append_assoc]
  have hB : ([dev, 0x0D, sub, v] ++ mu ++ [id] ++ le7 2 hdr'.length ++ hdr' ++ le7 2 n' ++ le7 2 t').length =
      (A ++ le7 2 hdr.length ++ hdr ++ le7 2 n ++ le7 2 t).length := by
    simp only [List.length_append, le7_length] at hA' ⊢
    omega
  obtain ⟨h6, -⟩ := common_number hp e4 e5 hB (by simp only [List.length_append, le7_length]; omega) hc h4
  rw [e3, hD]
  simp only [List.length_append, le7_length] at hA' ⊢
  omega

theorem ci_length {m : Sysex} (h : View.validate m = .ok true) : 12 ≤ m.data.length := by
  simp only [View.validate, andThen_true, isNonRealtime_true, sizeAtLeast_true] at h
  omega

/-- A message that is understood, and that starts like the message said up to its length fields, is not shorter than that one. -/
theorem said_complete (x : Said) (hx : x.Ok) (hoff : x.isProfileOff = false) (m' : Sysex) {y : Said} : ∃ m, x.say = .ok m ∧
    (m'.manufacturerID = m.manufacturerID → m'.data.take x.lengthsEnd <+: m.data → (∀ b ∈ m'.data, b.toNat < 128) →
      understand m' = .ok (some y) → m.data.length ≤ m'.data.length) := by
  obtain ⟨src, dst, dev, content⟩ := x
  obtain ⟨hs, hd, hdev, hx⟩ := hx
  have fin : ∀ {m : Sysex} {v st : Byte} {payload : List Byte} {names : List String}, IsMessage m v st dev src dst payload names →
      4 ≤ Said.lengthsEnd ⟨src, dst, dev, content⟩ → m'.manufacturerID = m.manufacturerID →
      m'.data.take (Said.lengthsEnd ⟨src, dst, dev, content⟩) <+: m.data → understand m' = .ok (some y) →
      (∀ r, m'.data = [dev, 0x0D, st, v] ++ r → ∀ c, readContent st.toNat m' = .ok (some c) → m.data.length ≤ m'.data.length) →
      m.data.length ≤ m'.data.length := by
    intro m v st payload names h hf hid hp hu k
    obtain ⟨a1, st', c, a2, a3⟩ := understand_some hu
    obtain ⟨r, hr⟩ := ci_start hf hp h.2.1 (ci_length a1)
    refine k r hr c ?_
    obtain rfl : st' = st := by
      unfold UniversalSysex.View.subtype at a2
      rw [hr] at a2
      exact (Except.ok.inj a2).symm
    exact a3
  cases content with
  | discoveryInquiryV1 i c mx =>
    obtain ⟨rfl, rfl, h1, h2, h3⟩ := hx
    obtain ⟨m, e, h, -⟩ := C40_discovery_inquiry_v1 src i c mx hs h1 h2 h3
    refine ⟨m, e, fun hid hp h7 hu => fin h (by simp [Said.lengthsEnd]) hid hp hu fun r' hr c' hc => ?_⟩
    obtain ⟨h8, h9⟩ := atLeastV_length ((C55_discovery_inquiry m').1 (reading_accepted (show reading DiscoveryInquiryView.validate m' _ = _ from hc))) hr
    have h10 := h9
    rw [h.2.1]
    simp [ciHeader_length, le7_length, identityBytes] at h10 ⊢
    omega
  | discoveryInquiry i c mx o =>
    obtain ⟨rfl, rfl, h1, h2, h3, h4⟩ := hx
    obtain ⟨m, e, h, -⟩ := C40_discovery_inquiry src i c mx o hs h1 h2 h3 h4
    refine ⟨m, e, fun hid hp h7 hu => fin h (by simp [Said.lengthsEnd]) hid hp hu fun r' hr c' hc => ?_⟩
    obtain ⟨h8, h9⟩ := atLeastV_length ((C55_discovery_inquiry m').1 (reading_accepted (show reading DiscoveryInquiryView.validate m' _ = _ from hc))) hr
    have h10 := h9
    rw [h.2.1]
    simp [ciHeader_length, le7_length, identityBytes] at h10 ⊢
    omega
  | discoveryReplyV1 i c mx =>
    obtain ⟨rfl, h1, h2, h3⟩ := hx
    obtain ⟨m, e, h, -⟩ := C40_discovery_reply_v1 src dst i c mx hs hd h1 h2 h3
    refine ⟨m, e, fun hid hp h7 hu => fin h (by simp [Said.lengthsEnd]) hid hp hu fun r' hr c' hc => ?_⟩
    obtain ⟨h8, h9⟩ := atLeastV_length ((C55_discovery_reply m').1 (reading_accepted (show reading DiscoveryReplyView.validate m' _ = _ from hc))) hr
    have h10 := h9
    rw [h.2.1]
    simp [ciHeader_length, le7_length, identityBytes] at h10 ⊢
    omega
  | discoveryReply i c mx o f =>
    obtain ⟨rfl, h1, h2, h3, h4, h5⟩ := hx
    obtain ⟨m, e, h, -⟩ := C40_discovery_reply src dst i c mx o f hs hd h1 h2 h3 h4 h5
    refine ⟨m, e, fun hid hp h7 hu => fin h (by simp [Said.lengthsEnd]) hid hp hu fun r' hr c' hc => ?_⟩
    obtain ⟨h8, h9⟩ := atLeastV_length ((C55_discovery_reply m').1 (reading_accepted (show reading DiscoveryReplyView.validate m' _ = _ from hc))) hr
    have h10 := h9
    rw [h.2.1]
    simp [ciHeader_length, le7_length, identityBytes] at h10 ⊢
    omega
  | endpointInquiry st =>
    obtain ⟨rfl, h1⟩ := hx
    obtain ⟨m, e, h, -⟩ := C40_endpoint_information_inquiry src dst st hs hd h1
    refine ⟨m, e, fun hid hp h7 hu => fin h (by simp [Said.lengthsEnd]) hid hp hu fun r' hr c' hc => ?_⟩
    have := atLeast_length ((C55_endpoint_information_inquiry m').1 (reading_accepted (show reading EndpointInformationInquiryView.validate m' _ = _ from hc)))
    rw [h.2.1]
    simp [ciHeader_length, le7_length, ProfileId.bytes]
    omega
  | endpointReply st data =>
    obtain ⟨rfl, h1, h2, h3⟩ := hx
    obtain ⟨m, e, h, -⟩ := C40_endpoint_information_reply src dst st data hs hd h1 h2 h3
    refine ⟨m, e, fun hid hp h7 hu => fin h (by simp [Said.lengthsEnd]) hid hp hu fun r' hr c' hc => ?_⟩
    have h8 := (C55_endpoint_information_reply m' h7).1 (reading_accepted (show reading EndpointInformationReplyView.validate m' _ = _ from hc))
    exact counted_length h8 hp (A := ciHeader 2 _ _ _ _ ++ [st]) (data := data) (by rw [h.2.1]; simp only [List.append_assoc]; rfl)
      (by simp [ciHeader_length, ProfileId.bytes, Details.bytes]) (by simp [Said.lengthsEnd]) (by omega)
  | ack t c d details text =>
    obtain ⟨h1, h2, h3, h4, h5, h6⟩ := hx
    obtain ⟨m, e, h, -⟩ := C40_ack src dst dev t c d details text hs hd hdev h1 h2 h3 h4 h5 h6
    refine ⟨m, e, fun hid hp h7 hu => fin h (by simp [Said.lengthsEnd]) hid hp hu fun r' hr c' hc => ?_⟩
    have h8 := (C55_ack m' h7).1 (reading_accepted (show reading AckView.validate m' _ = _ from hc))
    exact counted_length h8 hp (A := ciHeader 2 _ _ _ _ ++ ([t, c, d] ++ details.bytes)) (data := text) (by rw [h.2.1]; simp only [List.append_assoc]; rfl)
      (by simp [ciHeader_length, ProfileId.bytes, Details.bytes]) (by simp [Said.lengthsEnd]) (by omega)
  | nakV1 =>
    obtain ⟨m, e, e2, -⟩ := C40_nak_v1 src dst dev hs hd hdev
    refine ⟨m, e, fun hid hp h7 hu => ?_⟩
    have := ci_length (understand_some hu).1
    rw [e2]
    simp only [ciHeader_length]
    omega
  | nak t c d details text =>
    obtain ⟨h1, h2, h3, h4, h5, h6⟩ := hx
    obtain ⟨m, e, h, -⟩ := C40_nak src dst dev t c d details text hs hd hdev h1 h2 h3 h4 h5 h6
    refine ⟨m, e, fun hid hp h7 hu => fin h (by simp [Said.lengthsEnd]) hid hp hu fun r' hr c' hc => ?_⟩
    have hv : View.messageVersion m' = .ok 2 := by
      unfold View.messageVersion
      rw [hr]
      rfl
    replace hc : (do if (← View.messageVersion m') < 2 then return some Content.nakV1 else reading NakView.validate m' _) = .ok (some c') := hc
    rw [hv, ok_bind, if_neg (by decide)] at hc
    obtain ⟨g1, dv, sb, v, mu, pl, g2, g3, g4, -, g5⟩ := (C55_nak m' h7).1 (reading_accepted hc)
    exact counted_length ⟨g1, dv, sb, v, mu, pl, g2, g3, g4, g5⟩ hp (A := ciHeader 2 _ _ _ _ ++ ([t, c, d] ++ details.bytes)) (data := text)
      (by rw [h.2.1]; simp only [List.append_assoc]; rfl) (by simp [ciHeader_length, Details.bytes]) (by simp [Said.lengthsEnd]) (by omega)
  | invalidateMuid target =>
    obtain ⟨rfl, rfl, h1⟩ := hx
    obtain ⟨m, e, h, -⟩ := C40_invalidate_muid src target hs h1
    refine ⟨m, e, fun hid hp h7 hu => fin h (by simp [Said.lengthsEnd]) hid hp hu fun r' hr c' hc => ?_⟩
    have := atLeast_length ((C55_invalidate_muid m').1 (reading_accepted (show reading InvalidateMuidView.validate m' _ = _ from hc)))
    rw [h.2.1]
    simp [ciHeader_length, le7_length, ProfileId.bytes]
    omega
  | profileInquiry =>
    obtain ⟨m, e, h⟩ := C40_profile_inquiry src dst dev hs hd hdev
    refine ⟨m, e, fun hid hp h7 hu => ?_⟩
    have := ci_length (understand_some hu).1
    rw [h.2.1]
    simp only [List.append_nil, ciHeader_length]
    omega
  | profileInquiryReply en dis =>
    obtain ⟨h1, h2, h3, h4⟩ := hx
    obtain ⟨m, e, h, -⟩ := C41_profile_inquiry_reply src dst en dis dev hs hd hdev h1 h2 h3 h4
    refine ⟨m, e, fun hid hp h7 hu => fin h (by simp [Said.lengthsEnd]; omega) hid hp hu fun r' hr c' hc => ?_⟩
    have h8 := (C55_profile_inquiry_reply m' h7).1 (reading_accepted (show reading ProfileInquiryReplyView.validate m' _ = _ from hc))
    exact lists_length h8 hp h.2.1 (by rw [ciHeader_length]) (profileBytes_length en) (profileBytes_length dis) (Nat.le_refl _)
      (by omega) (by omega)
  | profileOn p n =>
    obtain ⟨h1, h2⟩ := hx
    obtain ⟨m, e, h, -⟩ := C40_profile_on src dst p ⟨dev, n⟩ hs hd h1 hdev h2
    refine ⟨m, e, fun hid hp h7 hu => fin h (by simp [Said.lengthsEnd]) hid hp hu fun r' hr c' hc => ?_⟩
    have := atLeast_length ((C55_profile_destination m').1 (reading_accepted (show reading ProfileDestinationView.validate m' _ = _ from hc)))
    rw [h.2.1]
    simp [ciHeader_length, le7_length, ProfileId.bytes]
    omega
  | profileEnabled p n =>
    obtain ⟨h1, h2⟩ := hx
    obtain ⟨m, e, h, -⟩ := C40_profile_enabled src dst p ⟨dev, n⟩ hs hd h1 hdev h2
    refine ⟨m, e, fun hid hp h7 hu => fin h (by simp [Said.lengthsEnd]) hid hp hu fun r' hr c' hc => ?_⟩
    have := atLeast_length ((C55_profile_destination m').1 (reading_accepted (show reading ProfileDestinationView.validate m' _ = _ from hc)))
    rw [h.2.1]
    simp [ciHeader_length, le7_length, ProfileId.bytes]
    omega
  | profileDisabled p n =>
    obtain ⟨h1, h2⟩ := hx
    obtain ⟨m, e, h, -⟩ := C40_profile_disabled src dst p ⟨dev, n⟩ hs hd h1 hdev h2
    refine ⟨m, e, fun hid hp h7 hu => fin h (by simp [Said.lengthsEnd]) hid hp hu fun r' hr c' hc => ?_⟩
    have := atLeast_length ((C55_profile_destination m').1 (reading_accepted (show reading ProfileDestinationView.validate m' _ = _ from hc)))
    rw [h.2.1]
    simp [ciHeader_length, le7_length, ProfileId.bytes]
    omega
  | profileOff p => cases hoff
  | profileAdded p =>
    have h1 := hx
    obtain ⟨m, e, h, -⟩ := C40_profile_added src dst p dev hs hd h1 hdev
    refine ⟨m, e, fun hid hp h7 hu => fin h (by simp [Said.lengthsEnd]) hid hp hu fun r' hr c' hc => ?_⟩
    have := atLeast_length ((C55_profile_id m').1 (reading_accepted (show reading ProfileIdView.validate m' _ = _ from hc)))
    rw [h.2.1]
    simp [ciHeader_length, le7_length, ProfileId.bytes]
    omega
  | profileRemoved p =>
    have h1 := hx
    obtain ⟨m, e, h, -⟩ := C40_profile_removed src dst p dev hs hd h1 hdev
    refine ⟨m, e, fun hid hp h7 hu => fin h (by simp [Said.lengthsEnd]) hid hp hu fun r' hr c' hc => ?_⟩
    have := atLeast_length ((C55_profile_id m').1 (reading_accepted (show reading ProfileIdView.validate m' _ = _ from hc)))
    rw [h.2.1]
    simp [ciHeader_length, le7_length, ProfileId.bytes]
    omega
  | profileDetailsInquiry p t =>
    obtain ⟨h1, h2⟩ := hx
    obtain ⟨m, e, h, -⟩ := C40_profile_details_inquiry src dst p t dev hs hd h1 h2 hdev
    refine ⟨m, e, fun hid hp h7 hu => fin h (by simp [Said.lengthsEnd]) hid hp hu fun r' hr c' hc => ?_⟩
    have := atLeast_length ((C55_profile_details_inquiry m').1 (reading_accepted (show reading ProfileDetailsInquiryView.validate m' _ = _ from hc)))
    rw [h.2.1]
    simp [ciHeader_length, le7_length, ProfileId.bytes]
    omega
  | profileDetailsReply p t data =>
    obtain ⟨h1, h2, h3, h4⟩ := hx
    obtain ⟨m, e, h, -⟩ := C40_profile_details_reply src dst p t data dev hs hd h1 h2 h3 h4 hdev
    refine ⟨m, e, fun hid hp h7 hu => fin h (by simp [Said.lengthsEnd]) hid hp hu fun r' hr c' hc => ?_⟩
    have h8 := (C55_profile_details_reply m' h7).1 (reading_accepted (show reading ProfileDetailsReplyView.validate m' _ = _ from hc))
    exact counted_length h8 hp (A := ciHeader 2 _ _ _ _ ++ (p.bytes ++ [t])) (data := data) (by rw [h.2.1]; simp only [List.append_assoc]; rfl)
      (by simp [ciHeader_length, ProfileId.bytes, Details.bytes]) (by simp [Said.lengthsEnd]) (by omega)
  | profileSpecificData p data =>
    obtain ⟨h1, h2, h3⟩ := hx
    obtain ⟨m, e, h, -⟩ := C43_profile_specific_data src dst p data dev hs hd h1 h2 h3 hdev
    refine ⟨m, e, fun hid hp h7 hu => fin h (by simp [Said.lengthsEnd]) hid hp hu fun r' hr c' hc => ?_⟩
    have h8 := (C55_profile_specific_data m' h7).1 (reading_accepted (show reading ProfileSpecificDataView.validate m' _ = _ from hc))
    exact counted_length h8 hp (A := ciHeader 2 _ _ _ _ ++ p.bytes) (data := data) (by rw [h.2.1]; simp only [List.append_assoc]; rfl)
      (by simp [ciHeader_length, ProfileId.bytes, Details.bytes]) (by simp [Said.lengthsEnd]) (by omega)
  | propertyCapabilitiesInquiry n =>
    have h1 := hx
    obtain ⟨m, e, h, -⟩ := C40_property_exchange_capabilities_inquiry src dst n dev hs hd h1 hdev
    refine ⟨m, e, fun hid hp h7 hu => fin h (by simp [Said.lengthsEnd]) hid hp hu fun r' hr c' hc => ?_⟩
    obtain ⟨h8, h9⟩ := atLeastV_length ((C55_property_exchange_capabilities m').1 (reading_accepted (show reading PropertyExchangeCapabilitiesView.validate m' _ = _ from hc))) hr
    have h10 := h9
    rw [h.2.1]
    simp [ciHeader_length, le7_length, identityBytes] at h10 ⊢
    omega
  | propertyCapabilitiesReply n =>
    have h1 := hx
    obtain ⟨m, e, h, -⟩ := C40_property_exchange_capabilities_reply src dst n dev hs hd h1 hdev
    refine ⟨m, e, fun hid hp h7 hu => fin h (by simp [Said.lengthsEnd]) hid hp hu fun r' hr c' hc => ?_⟩
    obtain ⟨h8, h9⟩ := atLeastV_length ((C55_property_exchange_capabilities m').1 (reading_accepted (show reading PropertyExchangeCapabilitiesView.validate m' _ = _ from hc))) hr
    have h10 := h9
    rw [h.2.1]
    simp [ciHeader_length, le7_length, identityBytes] at h10 ⊢
    omega
  | property k r hdr n t c =>
    obtain ⟨h1, h2, h3, h4⟩ := hx
    obtain ⟨m, e, h, -⟩ := C42_property_data k.subtype src dst (viewOf hdr) n t (viewOf c) r dev
      (by cases k <;> decide) hs hd h1 hdev h2 h3 (by rw [viewOf_bytes]; exact h4)
    rw [viewOf_bytes, viewOf_bytes] at h
    refine ⟨m, e, fun hid hp h7 hu => fin h (by simp [Said.lengthsEnd]; omega) hid hp hu fun r' hr c' hc => ?_⟩
    have hr' : readProperty k m' = .ok (some c') := by
      rw [← hc]
      cases k <;> rfl
    have h8 := (C55_property_data m' h7).1 (reading_accepted (show reading PropertyDataView.validate m' _ = _ from hr'))
    have b1 := h2.2.2
    have b2 := h3.2.2.2.2.2.2
    rw [viewOf_bytes] at b1 b2
    exact property_length h8 hp (A := ciHeader 2 _ _ _ _ ++ [r]) (by rw [h.2.1]; simp only [List.append_assoc]; rfl) (by simp [ciHeader_length])
      (Nat.le_refl _) (by omega) (by omega)
  | processCapabilitiesInquiry =>
    obtain ⟨m, e, h⟩ := C40_process_inquiry_capabilities_inquiry src dst dev hs hd hdev
    refine ⟨m, e, fun hid hp h7 hu => ?_⟩
    have := ci_length (understand_some hu).1
    rw [h.2.1]
    simp only [List.append_nil, ciHeader_length]
    omega
  | processCapabilitiesReply f =>
    have h1 := hx
    obtain ⟨m, e, h, -⟩ := C40_process_inquiry_capabilities_reply src dst f dev hs hd hx hdev
    refine ⟨m, e, fun hid hp h7 hu => fin h (by simp [Said.lengthsEnd]) hid hp hu fun r' hr c' hc => ?_⟩
    have := atLeast_length ((C55_process_inquiry_capabilities_reply m').1 (reading_accepted (show reading ProcessInquiryCapabilitiesReplyView.validate m' _ = _ from hc)))
    rw [h.2.1]
    simp [ciHeader_length, le7_length, ProfileId.bytes]
    omega
  | reportInquiry a b c d =>
    obtain ⟨h1, h2, h3, h4⟩ := hx
    obtain ⟨m, e, h, -⟩ := C40_midi_message_report_inquiry src dst a b c d dev hs hd h1 h2 h3 h4 hdev
    refine ⟨m, e, fun hid hp h7 hu => fin h (by simp [Said.lengthsEnd]) hid hp hu fun r' hr c' hc => ?_⟩
    have := atLeast_length ((C55_midi_message_report_inquiry m').1 (reading_accepted (show reading MidiMessageReportInquiryView.validate m' _ = _ from hc)))
    rw [h.2.1]
    simp [ciHeader_length, le7_length, ProfileId.bytes]
    omega
  | reportReply b c d =>
    obtain ⟨rfl, h2, h3, h4⟩ := hx
    obtain ⟨m, e, h, -⟩ := C40_midi_message_report_reply src b c d dev hs h2 h3 h4 hdev
    refine ⟨m, e, fun hid hp h7 hu => fin h (by simp [Said.lengthsEnd]) hid hp hu fun r' hr c' hc => ?_⟩
    have := atLeast_length ((C55_midi_message_report_reply m').1 (reading_accepted (show reading MidiMessageReportReplyView.validate m' _ = _ from hc)))
    rw [h.2.1]
    simp [ciHeader_length, le7_length, ProfileId.bytes]
    omega
  | reportEnd =>
    obtain rfl := hx
    obtain ⟨m, e, h⟩ := C40_midi_message_report_end src dev hs hdev
    refine ⟨m, e, fun hid hp h7 hu => ?_⟩
    have := ci_length (understand_some hu).1
    rw [h.2.1]
    simp only [List.append_nil, ciHeader_length]
    omega

/-- The message that turns a profile off may lack its last two bytes. -/
theorem off_lost (src dst : Word) (dev : Byte) (p : ProfileId) (hx : (⟨src, dst, dev, .profileOff p⟩ : Said).Ok) (m' : Sysex) {y : Said} :
    ∃ m, (⟨src, dst, dev, .profileOff p⟩ : Said).say = .ok m ∧ (m'.manufacturerID = m.manufacturerID → m'.data.take 17 <+: m.data →
      (∀ b ∈ m'.data, b.toNat < 128) → understand m' = .ok (some y) → 17 ≤ m'.data.length ∧ y = ⟨src, dst, dev, .profileOff p⟩) := by
  obtain ⟨hs, hd, hdev, hx⟩ := hx
  obtain ⟨m, e, h, -⟩ := C40_profile_off src dst p ⟨dev, 0⟩ hs hd hx hdev
  refine ⟨m, e, fun hid hp h7 hu => ?_⟩
  obtain ⟨a1, st', c, a2, a3⟩ := understand_some hu
  obtain ⟨r, hr⟩ := ci_start (by omega) hp h.2.1 (ci_length a1)
  obtain rfl : st' = 0x23 := by
    unfold UniversalSysex.View.subtype at a2
    rw [hr] at a2
    exact (Except.ok.inj a2).symm
  have hval := reading_accepted (show reading ProfileIdView.validate m' _ = _ from a3)
  have hlen := atLeast_length ((C55_profile_id m').1 hval)
  refine ⟨hlen, ?_⟩
  have h2 := List.prefix_iff_eq_take.1 hp
  rw [List.length_take, Nat.min_eq_left hlen, h.2.1] at h2
  have e3 : m' = msg 2 0x23 dev src dst (p.bytes ++ m'.data.drop 17) := by
    obtain ⟨id, d⟩ := m'
    rw [show id = _ from hid.trans h.1]
    unfold msg
    congr 1
    rw [← List.append_assoc]
    conv_lhs => rw [← List.take_append_drop 17 d]
    congr 1
  have hc : CarriesHeader m' 2 0x23 dev src dst := by
    rw [e3]
    refine carriesHeader (by decide) (by decide) hdev hs hd ?_
    intro b hb
    rw [List.mem_append] at hb
    rcases hb with hb | hb
    · exact hx b hb
    · exact h7 b (List.mem_of_mem_drop hb)
  have h3 : understand m' = .ok (some ⟨src, dst, dev, .profileOff p⟩) := by
    refine understand_eq hc (reading_ok (val := ProfileIdView.validate) ?_ ?_)
    · obtain ⟨b, b1, b2, -⟩ := C39_profile_id m'
      rw [hval] at b1
      rw [b2, ← Except.ok.inj b1]
      rfl
    · rw [e3]
      rfl
  rw [hu] at h3
  exact Option.some.inj (Except.ok.inj h3)

/-! ## C108 -/

/-- C108: of any message said, take away bytes: whatever is left (`m'`, with fewer bytes) agrees with the message as far as its
length fields go, `Said.lengthsEnd`, or ends before. It is not understood. The one exception is the message that turns a profile off,
which is understood as what it is when one or both of the two reserved bytes at its end are missing. -/
theorem C108_not_mistaken (x : Said) (hx : x.Ok) (m m' : Sysex) (hm : x.say = .ok m) (hid : m'.manufacturerID = m.manufacturerID)
    (h7 : ∀ b ∈ m'.data, b.toNat < 128) (hp : m'.data.take x.lengthsEnd <+: m.data) (hl : m'.data.length < m.data.length) :
    understand m' = .ok none ∨ (x.isProfileOff = true ∧ 17 ≤ m'.data.length ∧ understand m' = .ok (some x)) := by
  obtain ⟨r, hu⟩ := C106_safe m'
  cases r with
  | none => exact .inl hu
  | some y =>
    cases hoff : x.isProfileOff with
    | false =>
      obtain ⟨n, e, h⟩ := said_complete x hx hoff m' (y := y)
      obtain rfl := Except.ok.inj (e.symm.trans hm)
      have := h hid hp h7 hu
      omega
    | true =>
      obtain ⟨src, dst, dev, content⟩ := x
      cases content with
      | profileOff p =>
        obtain ⟨n, e, h⟩ := off_lost src dst dev p hx m' (y := y)
        obtain rfl := Except.ok.inj (e.symm.trans hm)
        obtain ⟨h1, rfl⟩ := h hid hp h7 hu
        exact .inr ⟨rfl, h1, hu⟩
      | _ => cases hoff

/-- C108: in particular no beginning of a message said is understood. -/
theorem C108_cut_short (x : Said) (hx : x.Ok) (m : Sysex) (hm : x.say = .ok m) (n : Nat) (hn : n < m.data.length) :
    understand ⟨m.manufacturerID, m.data.take n⟩ = .ok none ∨
      (x.isProfileOff = true ∧ 17 ≤ n ∧ understand ⟨m.manufacturerID, m.data.take n⟩ = .ok (some x)) := by
  obtain ⟨m', h1, -, h2, -⟩ := said_ok x hx
  obtain rfl := Except.ok.inj (h1.symm.trans hm)
  rcases C108_not_mistaken x hx m' ⟨m'.manufacturerID, m'.data.take n⟩ hm rfl
    (fun b hb => ((C53_is_valid m').1 h2).2.2.2.2 b (List.mem_of_mem_take hb)) ((List.take_prefix _ _).trans (List.take_prefix _ _))
    (by rw [List.length_take]; omega) with h | ⟨h3, h4, h5⟩
  · exact .inl h
  · rw [List.length_take] at h4
    exact .inr ⟨h3, by omega, h5⟩

/-! ### Packets lost -/

/-- Continue packets only: nothing is delivered. -/
theorem absRun7_conts : ∀ (its : List (Nat × List Byte)) (pl : List Byte), (∀ x ∈ its, x.1 = 2) →
    (absRun7 0 (true, pl) its).2 = [] := by
  intro its
  induction its with
  | nil => intros; rfl
  | cons x its ih =>
    intro pl h
    obtain ⟨c, e⟩ := x
    obtain rfl : c = 2 := h (c, e) (by simp)
    have := ih (pl ++ e) fun y hy => h y (List.mem_cons_of_mem _ hy)
    simp only [absRun7, abs7, fits_zero]
    simp [this]

/-- A start packet and continue packets: nothing is delivered. -/
theorem absRun7_unfinished {st : Bool × List Byte} (hst : st.1 = true ∨ st.2 = []) (its : List (Nat × List Byte)) (d : List Byte)
    (h : ∀ x ∈ its, x.1 = 2) : (absRun7 0 st ((1, d) :: its)).2 = [] := by
  obtain ⟨r, pl⟩ := st
  have hb : (if r then [] else pl) = ([] : List Byte) := by
    cases r <;> simp_all
  have := absRun7_conts its d h
  simp only [absRun7, abs7, fits_zero, hb]
  simp [this]

theorem sublist_append_last {α : Type} {l ps : List α} {a : α} (h : l.Sublist (ps ++ [a])) :
    l.Sublist ps ∨ ∃ k, l = k ++ [a] ∧ k.Sublist ps := by
  obtain ⟨l1, l2, rfl, h1, h2⟩ := List.sublist_append_iff.1 h
  rcases List.sublist_singleton.1 h2 with rfl | rfl
  · rw [List.append_nil]; exact .inl h1
  · exact .inr ⟨l1, rfl, h1⟩

theorem flatMap_full {ps : List Packet} (h : ∀ p ∈ ps, (payload7 p).length = 6) : (ps.flatMap payload7).length = 6 * ps.length := by
  induction ps with
  | nil => rfl
  | cons p ps ih =>
    have h1 := h p (by simp)
    have h2 := ih fun q hq => h q (List.mem_cons_of_mem _ hq)
    simp only [List.flatMap_cons, List.length_append, List.length_cons]
    omega

theorem prefix_flatMap {α β : Type} (f : α → List β) {l k : List α} (h : l <+: k) : l.flatMap f <+: k.flatMap f := by
  obtain ⟨r, rfl⟩ := h
  rw [List.flatMap_append]
  exact List.prefix_append _ _

theorem prefix_dropLast {α : Type} {l k : List α} {a : α} (h : l <+: k ++ [a]) (hl : l ≠ k ++ [a]) : l <+: k := by
  rcases List.prefix_concat_iff.1 h with h | h
  · exact absurd h hl
  · exact h

/-- C108: what is said is sent as packets, and some of the packets are lost: those received, `rs`, are fewer. The first `j` packets, which
have all of the message up to its length fields, have arrived. Then a collector, whatever it was fed before and whatever else arrives in
between, delivers nothing, or a single message which is not understood (or the message that turns a profile off, as above). -/
theorem C108_packets_lost (hist : List Packet) (x : Said) (hx : x.Ok) (g : Byte) (hg : g < 16) : ∃ ps, x.packets g = .ok ps ∧
    ∀ (j : Nat) (qs : List Packet), x.lengthsEnd < 6 * j → ps.take j <+: qs.filter (fun p => decide (IsSysex7 p)) →
      (qs.filter fun p => decide (IsSysex7 p)).Sublist ps → (qs.filter fun p => decide (IsSysex7 p)) ≠ ps →
      ∃ c before c' got, ({} : Collector7).feedAll hist = .ok (c, before) ∧ c.feedAll qs = .ok (c', got) ∧
        (got = [] ∨ ∃ m', got = [m'] ∧ (understand m' = .ok none ∨ (x.isProfileOff = true ∧ understand m' = .ok (some x)))) := by
  obtain ⟨m, hm, hid, hval, h12, -⟩ := said_ok x hx
  have h7 : ∀ b ∈ m.data, b.toNat < 128 := ((C53_is_valid m).1 hval).2.2.2.2
  obtain ⟨ps, e, hps, hfr, hfull, hpay⟩ := C17_send_sysex7 m g hg (by rw [hid]; decide)
  have hmap : m.data.map (· &&& 0x7F) = m.data := by
    conv_rhs => rw [← List.map_id m.data]
    refine List.map_congr_left fun b hb => ?_
    have hb := h7 b hb
    apply BitVec.eq_of_toNat_eq
    rw [BitVec.toNat_and, show (0x7F : Byte).toNat = 2 ^ 7 - 1 from rfl, Nat.and_two_pow_sub_one_eq_mod]
    simp only [id_eq]
    omega
  have hidb : idBytes7 m.manufacturerID = [0x7E] := by rw [hid]; decide
  rw [hmap, hidb] at hpay
  refine ⟨ps, by unfold Said.packets; rw [hm, ok_bind, e], fun j qs hj hpre hsub hne => ?_⟩
  generalize hrs : qs.filter (fun p => decide (IsSysex7 p)) = rs at *
  obtain ⟨c, hc, hrel⟩ := feedAll7_rel hist rel7_fresh
  obtain ⟨c', hc', -⟩ := feedAll7_rel qs hrel
  have hst := absRun7_clean (items7 hist) (false, []) (.inr rfl)
  refine ⟨c, _, c', _, hc, hc', ?_⟩
  rw [items7_of_filter hrs]
  have hlen := congrArg List.length hpay
  rw [List.length_append, List.length_singleton] at hlen
  have hshort : j < ps.length := by
    by_contra hcon
    rw [List.take_of_length_le (by omega)] at hpre
    exact hne (hsub.antisymm hpre.sublist)
  rcases hfr with hfr | ⟨n, hfr⟩
  · have h1 := congrArg List.length hfr
    simp only [List.length_map, List.length_singleton] at h1
    omega
  · match ps, hfr with
    | p0 :: ps, hfr =>
      simp only [List.map_cons, List.cons.injEq] at hfr
      obtain ⟨hf0, hfr⟩ := hfr
      obtain ⟨cs, es, rfl, hcs, hes⟩ := List.map_eq_append_iff.1 hfr
      obtain ⟨pe, rfl, hpe⟩ : ∃ pe, es = [pe] ∧ formatCode pe = 3 := by
        rcases es with _ | ⟨pe, _ | ⟨a, es⟩⟩
        · cases hes
        · exact ⟨pe, rfl, by simpa using hes⟩
        · simp at hes
      have hc2 : ∀ p ∈ cs, formatCode p = 2 := by
        intro p hp
        have : formatCode p ∈ List.replicate n 2 := by rw [← hcs]; exact List.mem_map_of_mem hp
        exact (List.mem_replicate.1 this).2
      obtain ⟨j, rfl⟩ : ∃ i, j = i + 1 := ⟨j - 1, by omega⟩
      rw [List.take_succ_cons] at hpre
      match rs, hpre with
      | [], hpre => exact absurd hpre.length_le (by simp)
      | r0 :: rs, hpre =>
        obtain ⟨rfl, hpre'⟩ := List.cons_prefix_cons.1 hpre
        have hsub := List.cons_sublist_cons.1 hsub
        have hfull' : ∀ p ∈ p0 :: cs, (payload7 p).length = 6 := by
          intro p hp
          refine hfull p ?_
          rw [← List.cons_append, List.dropLast_concat]
          exact hp
        rcases sublist_append_last hsub with hk | ⟨k, rfl, hk⟩
        · left
          rw [List.map_cons, hf0, absRun7_unfinished hst, List.map_nil]
          intro y hy
          obtain ⟨p, hp, rfl⟩ := List.mem_map.1 hy
          exact hc2 p (hk.subset hp)
        · right
          have hkl : k.length < cs.length := by
            rcases Nat.lt_or_ge k.length cs.length with h | h
            · exact h
            · exact absurd (by rw [hk.eq_of_length_le h]) hne
          rw [absRun7_framed hst _ (.inr ⟨k.length, ?_⟩) (fits_zero _), flatMap_snd_items]
          swap
          · rw [map_fst_items, List.map_cons, hf0, List.map_append, List.map_cons, hpe, List.map_nil, List.cons.injEq]
            refine ⟨rfl, ?_⟩
            congr 1
            rw [List.eq_replicate_iff]
            refine ⟨List.length_map .., fun b hb => ?_⟩
            obtain ⟨p, hp, rfl⟩ := List.mem_map.1 hb
            exact hc2 p (hk.subset hp)
          refine ⟨_, rfl, ?_⟩
          have hj6 : ((p0 :: (cs ++ [pe]).take j).flatMap payload7).length = 6 * (j + 1) := by
            have hin : ∀ p ∈ p0 :: (cs ++ [pe]).take j, (payload7 p).length = 6 := by
              intro p hp
              refine hfull' p ?_
              rcases List.mem_cons.1 hp with rfl | hp
              · simp
              · rw [List.take_append_of_le_length (by simp at hshort; omega)] at hp
                exact List.mem_cons_of_mem _ (List.mem_of_mem_take hp)
            rw [flatMap_full hin, List.length_cons, List.length_take]
            simp at hshort ⊢
            omega
          have hA : (p0 :: (cs ++ [pe]).take j).flatMap payload7 <+: (p0 :: (k ++ [pe])).flatMap payload7 :=
            prefix_flatMap _ (List.cons_prefix_cons.2 ⟨rfl, hpre'⟩)
          have hB : (p0 :: (cs ++ [pe]).take j).flatMap payload7 <+: 0x7E :: m.data := by
            show _ <+: [0x7E] ++ m.data
            rw [← hpay]
            exact prefix_flatMap _ (List.cons_prefix_cons.2 ⟨rfl, List.take_prefix _ _⟩)
          have hmem : ∀ b ∈ (p0 :: (k ++ [pe])).flatMap payload7, b ∈ (0x7E : Byte) :: m.data := by
            intro b hb
            show b ∈ [0x7E] ++ m.data
            rw [← hpay]
            obtain ⟨p, hp, hb⟩ := List.mem_flatMap.1 hb
            exact List.mem_flatMap.2 ⟨p, (List.cons_sublist_cons.2 (hk.append (List.Sublist.refl [pe]))).subset hp, hb⟩
          have hless : ((p0 :: (k ++ [pe])).flatMap payload7).length < 1 + m.data.length := by
            have h1 := flatMap_full fun p hp => hfull' p (List.mem_cons_of_mem _ hp)
            have h2 := flatMap_full fun p hp => hfull' p (List.mem_cons_of_mem _ (hk.subset hp))
            simp only [List.flatMap_cons, List.flatMap_append, List.length_append] at hlen ⊢
            omega
          generalize (p0 :: (k ++ [pe])).flatMap payload7 = R at *
          generalize (p0 :: (cs ++ [pe]).take j).flatMap payload7 = C at *
          match C, R with
          | [], _ => simp at hj6
          | _ :: C, [] => exact absurd hA.length_le (by simp)
          | a :: C, b :: R =>
            obtain ⟨rfl, hA'⟩ := List.cons_prefix_cons.1 hA
            obtain ⟨rfl, hB'⟩ := List.cons_prefix_cons.1 hB
            simp only [List.length_cons] at hj6 hless
            have hmm : message7 (0x7E :: R) = ⟨0x7E0000, R⟩ := rfl
            rw [hmm]
            have g1 : ∀ b ∈ R, b.toNat < 128 := by
              intro b hb
              rcases List.mem_cons.1 (hmem b (List.mem_cons_of_mem _ hb)) with rfl | h
              · decide
              · exact h7 b h
            have g2 : R.take x.lengthsEnd <+: m.data := by
              have h1 := List.prefix_iff_eq_take.1 hA'
              have h2 : R.take x.lengthsEnd = C.take x.lengthsEnd := by
                rw [h1, List.take_take]
                congr 1
                omega
              rw [h2]
              exact (List.take_prefix _ _).trans hB'
            rcases C108_not_mistaken x hx m ⟨0x7E0000, R⟩ hm hid.symm g1 g2 (by show R.length < _; omega) with h | ⟨h1, -, h2⟩
            · exact .inl h
            · exact .inr ⟨h1, h2⟩

/-- What is understood of one transmission. -/
theorem transmission_understood (hist : List Packet) (t : Transmission) (ht : t.Ok) (qs : List Packet)
    (hq : qs.filter (fun p => decide (IsSysex7 p)) = t.arrived) :
    ∃ c before c' got us, ({} : Collector7).feedAll hist = .ok (c, before) ∧ c.feedAll qs = .ok (c', got) ∧ got.mapM understand = .ok us ∧
      (us.filterMap id = [t.said] ∨ (t.arrived ≠ t.sent ∧ us.filterMap id = [])) := by
  obtain ⟨h1, h2, h3, h4⟩ := ht
  by_cases hall : t.arrived = t.sent
  · obtain ⟨sent, a1, -, a2⟩ := C106_over_packets hist [(t.said, t.group)] (by
      intro x hx
      rw [List.mem_singleton] at hx
      subst hx
      exact ⟨h1, h2⟩)
    have hs : sent.flatten = t.sent := by
      rw [List.mapM_cons, show t.said.packets t.group = _ from h3] at a1
      obtain rfl := (Except.ok.inj a1)
      simp
    obtain ⟨c, before, c', got, b1, b2, b3⟩ := a2 qs (by rw [hq, hall, hs])
    exact ⟨c, before, c', got, _, b1, b2, b3, .inl rfl⟩
  · rcases h4 with h | h | ⟨j, j1, j2, j3⟩
    · exact absurd h hall
    · obtain ⟨c, hc, hrel⟩ := feedAll7_rel hist rel7_fresh
      obtain ⟨c', hc', -⟩ := feedAll7_rel qs hrel
      have hi : items7 qs = [] := by rw [items7_of_filter (hq.trans h)]; rfl
      rw [hi] at hc'
      exact ⟨c, _, c', [], [], hc, hc', rfl, .inr ⟨hall, rfl⟩⟩
    · obtain ⟨ps, e, key⟩ := C108_packets_lost hist t.said h1 t.group h2
      obtain rfl := Except.ok.inj (h3.symm.trans e)
      obtain ⟨c, before, c', got, b1, b2, b3⟩ := key j qs j1 (by rw [hq]; exact j2) (by rw [hq]; exact j3) (by rw [hq]; exact hall)
      rcases b3 with rfl | ⟨m', rfl, b3 | ⟨-, b3⟩⟩
      · exact ⟨c, before, c', [], [], b1, b2, rfl, .inr ⟨hall, rfl⟩⟩
      · exact ⟨c, before, c', [m'], [none], b1, b2, by rw [List.mapM_cons, b3]; rfl, .inr ⟨hall, rfl⟩⟩
      · exact ⟨c, before, c', [m'], [some t.said], b1, b2, by rw [List.mapM_cons, b3]; rfl, .inl rfl⟩

/-- C108: a whole conversation, of each message of which all packets arrive, or none, or some, among them those with the length fields.
Everything that has arrived whole is understood, and nothing is understood that was not said; and all that in the order in which it was
said. -/
theorem C108_conversation (ts : List Transmission) : ∀ (hist : List Packet), (∀ t ∈ ts, t.Ok) → ∀ qs : List Packet,
    qs.filter (fun p => decide (IsSysex7 p)) = ts.flatMap Transmission.arrived →
    ∃ c before c' got us, ({} : Collector7).feedAll hist = .ok (c, before) ∧ c.feedAll qs = .ok (c', got) ∧ got.mapM understand = .ok us ∧
      ((ts.filter fun t => decide (t.arrived = t.sent)).map Transmission.said).Sublist (us.filterMap id) ∧
      (us.filterMap id).Sublist (ts.map Transmission.said) := by
  induction ts with
  | nil =>
    intro hist _ qs hq
    obtain ⟨c, hc, hrel⟩ := feedAll7_rel hist rel7_fresh
    obtain ⟨c', hc', -⟩ := feedAll7_rel qs hrel
    have hi : items7 qs = [] := by rw [items7_of_filter hq]; rfl
    rw [hi] at hc'
    exact ⟨c, _, c', [], [], hc, hc', rfl, List.Sublist.refl _, List.Sublist.refl _⟩
  | cons t ts ih =>
    intro hist hts qs hq
    rw [List.flatMap_cons] at hq
    obtain ⟨q1, q2, rfl, hq1, hq2⟩ := List.filter_eq_append_iff.1 hq
    obtain ⟨c, before, c1, got1, us1, a1, a2, a3, a4⟩ := transmission_understood hist t (hts t (by simp)) q1 hq1
    obtain ⟨d, before2, c2, got2, us2, b1, b2, b3, b4, b5⟩ := ih (hist ++ q1) (fun y hy => hts y (List.mem_cons_of_mem _ hy)) q2 hq2
    have e1 := feedAll7_append hist q1 a1 a2
    rw [b1] at e1
    obtain rfl := (Prod.mk.inj (Except.ok.inj e1)).1
    refine ⟨c, before, c2, got1 ++ got2, us1 ++ us2, a1, feedAll7_append q1 q2 a2 b2, ?_, ?_, ?_⟩
    · rw [List.mapM_append, a3, ok_bind, b3]; rfl
    · rw [List.filterMap_append, List.filter_cons]
      rcases a4 with a4 | ⟨a4, a5⟩
      · rw [a4]
        split
        · exact List.cons_sublist_cons.2 b4
        · exact List.Sublist.cons _ b4
      · rw [if_neg (by simpa using a4), a5]
        exact b4
    · rw [List.filterMap_append, List.map_cons]
      rcases a4 with a4 | ⟨-, a4⟩
      · rw [a4]; exact List.cons_sublist_cons.2 b5
      · rw [a4]; exact List.Sublist.cons _ b5

/-- A reply with a header of eight bytes and six bytes of data. -/
def lostReply : Said := ⟨0x1234567, 0x0765432, 0x7F, .property .getReply 7 [0x7B, 0x22, 0x61, 0x22, 0x3A, 0x31, 0x32, 0x7D] 1 1 [1, 0, 1, 0, 0, 0]⟩

/-- C108, why the packets with the length fields must have arrived: without its fourth packet, which has most of the header, the reply is
understood, with a header that was never sent and without data. MIDI-CI messages have no checksum. -/
theorem C108_header_lost : lostReply.Ok ∧ ∃ ps c m, lostReply.packets 0 = .ok ps ∧ ({} : Collector7).feedAll (ps.eraseIdx 3) = .ok (c, [m]) ∧
    understand m = .ok (some ⟨0x1234567, 0x0765432, 0x7F, .property .getReply 7 [0x7B, 0x22, 1, 0, 1, 0, 6, 0] 1 1 []⟩) := by
  refine ⟨by unfold lostReply Said.Ok; simp; decide, _, _, _, rfl, rfl, ?_⟩
  decide +kernel

/-! Messages, packets of which are lost. -/

example : ∃ ps, lostReply.packets 0 = .ok ps ∧ ps.length = 6 ∧ lostReply.lengthsEnd < 6 * 5 := ⟨_, rfl, by decide, by decide⟩

/-- A profile specific data message with 20 bytes. -/
def lostData : Said := ⟨0x1234567, 0x0765432, 3, .profileSpecificData ⟨0x7E, 1, 2, 3, 4⟩ (List.replicate 20 5)⟩

/-- Its seven packets, of which all but the sixth arrive: a message is delivered, and not understood. -/
example : lostData.Ok ∧ ∃ ps c m, lostData.packets 0 = .ok ps ∧ lostData.lengthsEnd < 6 * 4 ∧ ps.take 4 <+: ps.eraseIdx 5 ∧
    ({} : Collector7).feedAll (ps.eraseIdx 5) = .ok (c, [m]) ∧ understand m = .ok none := by
  refine ⟨by unfold lostData Said.Ok; simp; decide, _, _, _, rfl, by decide, by decide +kernel, rfl, by decide +kernel⟩

/-- A transmission of it. -/
example : ∃ ps, lostData.packets 0 = .ok ps ∧ (⟨lostData, 0, ps, ps.eraseIdx 5⟩ : Transmission).Ok :=
  ⟨_, rfl, by unfold lostData Said.Ok; simp; decide, by decide, rfl, .inr (.inr ⟨4, by decide, by decide +kernel, List.eraseIdx_sublist ..⟩)⟩

/-- The message that turns a profile off, without its last two bytes. -/
example : ∃ m, (⟨0x1234567, 0x0765432, 3, .profileOff ⟨0x7E, 1, 2, 3, 4⟩⟩ : Said).say = .ok m ∧ m.data.length = 19 ∧
    understand ⟨m.manufacturerID, m.data.take 17⟩ = .ok (some ⟨0x1234567, 0x0765432, 3, .profileOff ⟨0x7E, 1, 2, 3, 4⟩⟩) :=
  ⟨_, rfl, rfl, by decide +kernel⟩

end Midi
