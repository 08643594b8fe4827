import Verif.Spec.Transfer
import Verif.Props.PropertyExchange
import Verif.Props.CITransport
import Verif.Props.Multiplex

/-!
# C84: transfers of property data in chunks
-/

namespace Midi
open Spec UniversalSysex CI

/-! ## What a sender does -/

/-- The reply to a get inquiry: the first message with the header, the others without. -/
def replyMessages (t : Transfer) : Except Fault (List Sysex) :=
  let n := BitVec.ofNat 16 t.chunks.length
  t.chunks.zipIdx.mapM fun (chunk, i) =>
    if i = 0 then makeGetReplyHeader t.source t.dest ⟨false, t.header⟩ n 1 ⟨false, chunk⟩ t.requestId t.deviceId
    else makeGetReplyChunk t.source t.dest n (BitVec.ofNat 16 (i + 1)) ⟨false, chunk⟩ t.requestId t.deviceId

/-- A set inquiry for a resource. -/
def setMessages (t : Transfer) (resource : List Byte) : Except Fault (List Sysex) :=
  let n := BitVec.ofNat 16 t.chunks.length
  t.chunks.zipIdx.mapM fun (chunk, i) =>
    if i = 0 then makeSetInquiry t.source t.dest resource n 1 ⟨false, chunk⟩ t.requestId t.deviceId
    else makeSetInquiryChunk t.source t.dest n (BitVec.ofNat 16 (i + 1)) ⟨false, chunk⟩ t.requestId t.deviceId

/-- The parts of a transfer are in range: there is at least one chunk, there are at most 16383 chunks of at most 16383 bytes each, and
everything is 7 bit. -/
def Spec.Transfer.Ok (t : Transfer) : Prop :=
  U28 t.source ∧ U28 t.dest ∧ U7 t.deviceId ∧ U7 t.requestId ∧ Spec.Seven t.header ∧ t.header.length ≤ 16383 ∧
  t.chunks ≠ [] ∧ t.chunks.length ≤ 16383 ∧ ∀ c ∈ t.chunks, Spec.Seven c ∧ c.length ≤ 16383

/-- The messages are those made for a get reply or a set inquiry. -/
def MadeFor (t : Transfer) (ms : List Sysex) : Prop :=
  (t.subtype = 0x35 ∧ replyMessages t = .ok ms) ∨
  (t.subtype = 0x36 ∧ ∃ resource, t.header = ascii "{\"resource\":\"" ++ resource ++ ascii "\"}" ∧ setMessages t resource = .ok ms)

/-! ## Helper lemmas -/

/-- The `i`-th message carries the `i`-th chunk. -/
def Carries (t : Transfer) (ms : List Sysex) : Prop :=
  ms.length = t.chunks.length ∧ ∀ i m c, ms[i]? = some m → t.chunks[i]? = some c →
    IsPropertyMessage m t.subtype t.deviceId t.source t.dest t.requestId (if i = 0 then t.header else [])
      (BitVec.ofNat 16 t.chunks.length) (BitVec.ofNat 16 (i + 1)) c

theorem mapM_zipIdx {α β : Type} (f : α × Nat → Except Fault β) (l : List α) (k : Nat)
    (P : Nat → α → β → Prop) (h : ∀ i a, l[i]? = some a → ∃ b, f (a, k + i) = .ok b ∧ P i a b) :
    ∃ r, (l.zipIdx k).mapM f = .ok r ∧ r.length = l.length ∧ ∀ i b a, r[i]? = some b → l[i]? = some a → P i a b := by
  induction l generalizing k P with
  | nil => exact ⟨[], rfl, rfl, fun i b a hb => by simp at hb⟩
  | cons a l ih =>
    obtain ⟨b, hb, hP⟩ := h 0 a rfl
    obtain ⟨r, hr, hl, hall⟩ := ih (k + 1) (fun i => P (i + 1)) fun i a' ha' => by
      have := h (i + 1) a' (by simpa using ha')
      rwa [show k + (i + 1) = k + 1 + i by omega] at this
    refine ⟨b :: r, ?_, by simp [hl], fun i b' a' hb' ha' => ?_⟩
    · rw [List.zipIdx_cons, List.mapM_cons]
      rw [Nat.add_zero] at hb
      rw [hb, ok_bind, hr]; rfl
    · cases i with
      | zero => simp at hb' ha'; subst hb' ha'; exact hP
      | succ i => exact hall i b' a' (by simpa using hb') (by simpa using ha')

theorem accepting_names (m : Sysex) (vs : List ViewClass) (names : List String) (h : accepting m vs = .ok names) :
    ∀ n ∈ names, n ∈ vs.map (·.name) := by
  induction vs generalizing names with
  | nil => obtain rfl : [] = names := Except.ok.inj h; simp
  | cons v vs ih =>
    unfold accepting at h
    obtain ⟨b, hb, h⟩ := bindOk_iff.1 h
    obtain ⟨r, hr, h⟩ := bindOk_iff.1 h
    obtain rfl := Except.ok.inj h
    intro n hn
    cases b
    · exact List.mem_cons_of_mem _ (ih r hr n hn)
    · rcases List.mem_cons.1 hn with rfl | hn
      · simp
      · exact List.mem_cons_of_mem _ (ih r hr n hn)

theorem accepting_true (m : Sysex) (vs : List ViewClass) (names : List String) (hn : (vs.map (·.name)).Nodup)
    (h : accepting m vs = .ok names) (v : ViewClass) (hv : v ∈ vs) (hname : v.name ∈ names) : v.validate m = .ok true := by
  induction vs generalizing names with
  | nil => cases hv
  | cons w vs ih =>
    unfold accepting at h
    obtain ⟨b, hb, h⟩ := bindOk_iff.1 h
    obtain ⟨r, hr, h⟩ := bindOk_iff.1 h
    obtain rfl := Except.ok.inj h
    rw [List.map_cons, List.nodup_cons] at hn
    rcases List.mem_cons.1 hv with rfl | hv
    · cases b
      · exact absurd (accepting_names m vs r hr _ hname) hn.1
      · exact hb
    · refine ih r hn.2 hr hv ?_
      cases b
      · exact hname
      · rcases List.mem_cons.1 hname with e | hname
        · exact absurd (List.mem_map.2 ⟨v, hv, e⟩) hn.1
        · exact hname

/-- What the receiver relies on. -/
theorem property_valid {m : Sysex} {st dev : Byte} {src dst : Word} {req : Byte} {header : List Byte} {n i : U16} {chunk : List Byte}
    (h : IsPropertyMessage m st dev src dst req header n i chunk) : m.isValid = true ∧ PropertyDataView.validate m = .ok true ∧
      View.subtype m = .ok st ∧ CI.View.sourceMuid m = .ok src := by
  obtain ⟨⟨-, -, hc, ha⟩, -⟩ := h
  refine ⟨hc.1, ?_, hc.2.2.2.2.1, hc.2.2.2.2.2.2.1⟩
  exact accepting_true m views _ (by decide) ha ⟨"property_data_message_view", PropertyDataView.validate, [0x34, 0x35, 0x36, 0x37, 0x38, 0x39, 0x3F]⟩
    (by simp [views]) (by simp)

theorem belongs_property {t : Transfer} {m : Sysex} {st dev : Byte} {src dst : Word} {req : Byte} {header : List Byte} {n i : U16}
    {chunk : List Byte} (h : IsPropertyMessage m st dev src dst req header n i chunk) :
    belongs t m = .ok (st == t.subtype && src == t.source && req == t.requestId) := by
  obtain ⟨-, h1, h2, h3⟩ := property_valid h
  unfold belongs
  rw [h1, ok_bind, if_pos rfl, h2, ok_bind, h3, ok_bind, h.2.1, ok_bind]
  rfl

theorem take_property {t : Transfer} {b : Inbox} {m : Sysex} {st dev : Byte} {src dst : Word} {req : Byte} {header : List Byte} {n i : U16}
    {chunk : List Byte} (h : IsPropertyMessage m st dev src dst req header n i chunk) (hb : belongs t m = .ok true) :
    b.take t m = .ok ⟨if i = 1 then header else b.header, b.data ++ chunk, decide (i = n)⟩ := by
  obtain ⟨-, -, -, h3, h4, h5, -, h7⟩ := h
  unfold Inbox.take
  rw [hb, ok_bind, if_pos rfl, h5, ok_bind, h4, ok_bind, h3, ok_bind, h7, ok_bind]
  rfl

theorem take_other {t : Transfer} {b : Inbox} {m : Sysex} (hb : belongs t m = .ok false) : b.take t m = .ok b := by
  unfold Inbox.take
  rw [hb, ok_bind, if_neg (by decide)]
  rfl

theorem takeAll_filter {t : Transfer} (P : Sysex → Bool) (ms : List Sysex) (h : ∀ m ∈ ms, belongs t m = .ok (P m)) (b : Inbox) :
    b.takeAll t ms = b.takeAll t (ms.filter P) := by
  induction ms generalizing b with
  | nil => rfl
  | cons m ms ih =>
    have hm := h m (by simp)
    have ih := fun b => ih (fun x hx => h x (by simp [hx])) b
    unfold Inbox.takeAll at ih ⊢
    rw [List.foldlM_cons]
    cases hp : P m
    · rw [hp] at hm
      rw [take_other hm, ok_bind, ih, List.filter_cons_of_neg (by simp [hp])]
    · rw [List.filter_cons_of_pos hp, List.foldlM_cons]
      congr 1
      funext b'
      exact ih b'

/-- The first `k` messages of a transfer. -/
theorem takeAll_first {t : Transfer} {ms : List Sysex} (hm : Carries t ms) (hlen : t.chunks.length ≤ 16383) (k : Nat) (hk : k ≤ ms.length) :
    ({} : Inbox).takeAll t (ms.take k) = .ok ⟨if k = 0 then [] else t.header, (t.chunks.take k).flatten, decide (k ≠ 0 ∧ k = t.chunks.length)⟩ := by
  induction k with
  | zero => rfl
  | succ k ih =>
    obtain ⟨hl, hall⟩ := hm
    have hk' : k < ms.length := by omega
    have hkc : k < t.chunks.length := by omega
    have hprop := hall k ms[k] t.chunks[k] (List.getElem?_eq_getElem hk') (List.getElem?_eq_getElem hkc)
    have hb : belongs t ms[k] = .ok true := by rw [belongs_property hprop]; simp
    have e1 : (BitVec.ofNat 16 (k + 1) = 1) ↔ k = 0 := by
      rw [BitVec.toNat_inj.symm, BitVec.toNat_ofNat, Nat.mod_eq_of_lt (by omega)]
      show k + 1 = 1 ↔ _
      omega
    have e2 : (BitVec.ofNat 16 (k + 1) = BitVec.ofNat 16 t.chunks.length) ↔ k + 1 = t.chunks.length := by
      rw [BitVec.toNat_inj.symm, BitVec.toNat_ofNat, BitVec.toNat_ofNat, Nat.mod_eq_of_lt (by omega), Nat.mod_eq_of_lt (by omega)]
    unfold Inbox.takeAll at ih ⊢
    rw [List.take_succ_eq_append_getElem hk', List.foldlM_append, ih (by omega), ok_bind, List.foldlM_cons, take_property hprop hb, ok_bind,
      List.foldlM_nil, List.take_succ_eq_append_getElem hkc, List.flatten_append]
    simp only [e1, e2]
    by_cases h0 : k = 0 <;> simp [h0] <;> rfl

theorem chunk_ok {t : Transfer} (ht : t.Ok) : ∀ i c, t.chunks[i]? = some c →
    ChunkOk (BitVec.ofNat 16 t.chunks.length) (BitVec.ofNat 16 (i + 1)) ⟨false, c⟩ := by
  obtain ⟨hs, hd, hdev, hreq, hh7, hhl, hne, hlen, hch⟩ := ht
  have hpos : 0 < t.chunks.length := List.length_pos_iff.2 hne
  have hn : (BitVec.ofNat 16 t.chunks.length).toNat = t.chunks.length := by rw [BitVec.toNat_ofNat]; omega
  intro i c hc
  have hi : i < t.chunks.length := (List.getElem?_eq_some_iff.1 hc).1
  obtain ⟨h7, hl⟩ := hch c (List.mem_of_getElem? hc)
  have hi' : (BitVec.ofNat 16 (i + 1)).toNat = i + 1 := by rw [BitVec.toNat_ofNat]; omega
  refine ⟨by show _ < _; omega, by show _ < _; omega, Or.inr (by omega), fun h0 => ?_, fun h => Bool.noConfusion h, h7, hl⟩
  rw [h0] at hi'
  simp at hi'

theorem reply_carries {t : Transfer} (ht : t.Ok) (hst : t.subtype = 0x35) : ∃ ms, replyMessages t = .ok ms ∧ Carries t ms := by
  have hchunk := chunk_ok ht
  obtain ⟨hs, hd, hdev, hreq, hh7, hhl, hne, hlen, hch⟩ := ht
  unfold replyMessages
  obtain ⟨r, hr, hl, hall⟩ := mapM_zipIdx (fun (x : List Byte × Nat) =>
    if x.2 = 0 then makeGetReplyHeader t.source t.dest ⟨false, t.header⟩ (BitVec.ofNat 16 t.chunks.length) 1 ⟨false, x.1⟩ t.requestId t.deviceId
    else makeGetReplyChunk t.source t.dest (BitVec.ofNat 16 t.chunks.length) (BitVec.ofNat 16 (x.2 + 1)) ⟨false, x.1⟩ t.requestId t.deviceId)
    t.chunks 0 (fun i c m => IsPropertyMessage m t.subtype t.deviceId t.source t.dest t.requestId (if i = 0 then t.header else [])
      (BitVec.ofNat 16 t.chunks.length) (BitVec.ofNat 16 (i + 1)) c) (by
      intro i c hc
      rw [hst]
      rw [Nat.zero_add]
      by_cases h0 : i = 0
      · subst h0
        exact C42_get_reply_header t.source t.dest t.requestId t.deviceId hs hd hreq hdev ⟨false, t.header⟩ _ 1 ⟨false, c⟩
          ⟨fun h => Bool.noConfusion h, hh7, hhl⟩ (hchunk 0 c hc) (Or.inr (by decide))
      · simp only [h0, if_false]
        exact C42_get_reply_chunk t.source t.dest t.requestId t.deviceId hs hd hreq hdev _ _ ⟨false, c⟩ (hchunk i c hc))
  exact ⟨r, hr, hl, hall⟩

theorem set_carries {t : Transfer} (ht : t.Ok) (hst : t.subtype = 0x36) (resource : List Byte)
    (hr : t.header = ascii "{\"resource\":\"" ++ resource ++ ascii "\"}") : ∃ ms, setMessages t resource = .ok ms ∧ Carries t ms := by
  have hchunk := chunk_ok ht
  obtain ⟨hs, hd, hdev, hreq, hh7, hhl, hne, hlen, hch⟩ := ht
  have hr7 : Seven resource := fun b hb => hh7 b (by rw [hr]; simp [hb])
  have hrl : resource.length ≤ 16368 := by
    have : t.header.length = resource.length + 15 := by
      rw [hr]; simp only [List.length_append]
      have e1 : (ascii "{\"resource\":\"").length = 13 := by decide
      have e2 : (ascii "\"}").length = 2 := by decide
      omega
    omega
  unfold setMessages
  obtain ⟨r, hr', hl, hall⟩ := mapM_zipIdx (fun (x : List Byte × Nat) =>
    if x.2 = 0 then makeSetInquiry t.source t.dest resource (BitVec.ofNat 16 t.chunks.length) 1 ⟨false, x.1⟩ t.requestId t.deviceId
    else makeSetInquiryChunk t.source t.dest (BitVec.ofNat 16 t.chunks.length) (BitVec.ofNat 16 (x.2 + 1)) ⟨false, x.1⟩ t.requestId t.deviceId)
    t.chunks 0 (fun i c m => IsPropertyMessage m t.subtype t.deviceId t.source t.dest t.requestId (if i = 0 then t.header else [])
      (BitVec.ofNat 16 t.chunks.length) (BitVec.ofNat 16 (i + 1)) c) (by
      intro i c hc
      rw [hst]
      rw [Nat.zero_add]
      by_cases h0 : i = 0
      · subst h0
        simp only [if_true]
        rw [hr]
        exact C42_set_inquiry t.source t.dest t.requestId t.deviceId hs hd hreq hdev resource _ 1 ⟨false, c⟩ hr7 hrl (hchunk 0 c hc) (by decide)
      · simp only [h0, if_false]
        exact C42_set_inquiry_chunk t.source t.dest t.requestId t.deviceId hs hd hreq hdev _ _ ⟨false, c⟩ (hchunk i c hc))
  exact ⟨r, hr', hl, hall⟩

theorem carries_of_made {t : Transfer} (ht : t.Ok) {ms : List Sysex} (h : MadeFor t ms) : Carries t ms := by
  rcases h with ⟨hst, h⟩ | ⟨hst, resource, hr, h⟩
  · obtain ⟨r, h1, h2⟩ := reply_carries ht hst
    obtain rfl : r = ms := Except.ok.inj (h1.symm.trans h)
    exact h2
  · obtain ⟨r, h1, h2⟩ := set_carries ht hst resource hr
    obtain rfl : r = ms := Except.ok.inj (h1.symm.trans h)
    exact h2

theorem Spec.Interleaved.mem {α : Type} {ls : List (List α)} {w : List α} (h : Interleaved ls w) {a : α} (ha : a ∈ w) : ∃ l ∈ ls, a ∈ l := by
  induction h with
  | nothing ls h => cases ha
  | next ls i b l w hi _ ih =>
    rcases List.mem_cons.1 ha with rfl | ha
    · exact ⟨_, List.mem_of_getElem? hi, by simp⟩
    · obtain ⟨l', hl', h⟩ := ih ha
      rcases List.mem_or_eq_of_mem_set hl' with hl' | rfl
      · exact ⟨l', hl', h⟩
      · exact ⟨_, List.mem_of_getElem? hi, List.mem_cons_of_mem _ h⟩

/-! ## C84 -/

/-- C84: the receiver may give every sysex message there is to the views: it never reads out of bounds. -/
theorem C84_receiver_safe (t : Transfer) (b : Inbox) (m : Sysex) : NoFault (b.take t m) := by
  obtain ⟨v, hv⟩ := propertyData_noFault m
  cases v
  · refine ⟨b, take_other ?_⟩
    unfold belongs
    rw [hv]; rfl
  · obtain ⟨-, hlen, -, ⟨req, h1⟩, -, ⟨hd, h2⟩, ⟨n, h3⟩, ⟨i, h4⟩, -, ⟨c, h5⟩⟩ := propertyData_safe hv
    have hsub : NoFault (View.subtype m) := by
      unfold View.subtype
      split
      · exact NoFault.index (by omega)
      · exact NoFault.ok _
    have hsrc : NoFault (CI.View.sourceMuid m) := NoFault.uint28 (by omega)
    obtain ⟨st, hst⟩ := hsub
    obtain ⟨src, hsrc⟩ := hsrc
    unfold Inbox.take belongs
    rw [hv, ok_bind, if_pos rfl, hst, ok_bind, hsrc, ok_bind, h1, ok_bind, h2, h3, h4, h5]
    cases (st == t.subtype && src == t.source && req == t.requestId)
    · exact ⟨b, rfl⟩
    · exact ⟨_, rfl⟩

/-- C84: every get reply can be made, in as many messages as there are chunks. -/
theorem C84_reply_can_be_made (t : Transfer) (ht : t.Ok) (hst : t.subtype = 0x35) :
    ∃ ms, MadeFor t ms ∧ ms.length = t.chunks.length ∧ ms ≠ [] := by
  obtain ⟨ms, h, hc⟩ := reply_carries ht hst
  exact ⟨ms, Or.inl ⟨hst, h⟩, hc.1, fun e => ht.2.2.2.2.2.2.1 (List.length_eq_zero_iff.1 (by rw [← hc.1, e]; rfl))⟩

/-- C84: every set inquiry can be made. -/
theorem C84_set_can_be_made (t : Transfer) (ht : t.Ok) (hst : t.subtype = 0x36) (resource : List Byte)
    (hr : t.header = ascii "{\"resource\":\"" ++ resource ++ ascii "\"}") :
    ∃ ms, MadeFor t ms ∧ ms.length = t.chunks.length ∧ ms ≠ [] := by
  obtain ⟨ms, h, hc⟩ := set_carries ht hst resource hr
  exact ⟨ms, Or.inr ⟨hst, resource, hr, h⟩, hc.1, fun e => ht.2.2.2.2.2.2.1 (List.length_eq_zero_iff.1 (by rw [← hc.1, e]; rfl))⟩

/-- Transfers that can be told apart. -/
def Distinct (t u : Transfer) : Prop := t.subtype ≠ u.subtype ∨ t.source ≠ u.source ∨ t.requestId ≠ u.requestId

instance (t u : Transfer) : Decidable (Distinct t u) := inferInstanceAs (Decidable (_ ∨ _))

theorem Distinct.symm {t u : Transfer} (h : Distinct t u) : Distinct u t := by
  rcases h with h | h | h
  · exact Or.inl h.symm
  · exact Or.inr (Or.inl h.symm)
  · exact Or.inr (Or.inr h.symm)

/-- Messages of a transfer, as another receiver sees them. -/
theorem belongs_carried {t u : Transfer} {ms : List Sysex} (h : Carries u ms) {m : Sysex} (hm : m ∈ ms) :
    belongs t m = .ok (u.subtype == t.subtype && u.source == t.source && u.requestId == t.requestId) := by
  obtain ⟨i, hi, rfl⟩ := List.getElem_of_mem hm
  exact belongs_property (h.2 i _ (u.chunks[i]'(h.1 ▸ hi)) (List.getElem?_eq_getElem hi) (List.getElem?_eq_getElem _))

/-- The receiver's selection among all messages. -/
theorem selects (ts : List (Transfer × List Sysex)) (hts : ∀ x ∈ ts, x.1.Ok ∧ MadeFor x.1 x.2)
    (hdist : ts.Pairwise fun x y => Distinct x.1 y.1) (other : List Sysex) (hother : ∀ m ∈ other, ∀ x ∈ ts, belongs x.1 m = .ok false)
    (w : List Sysex) (hw : Interleaved (ts.map Prod.snd ++ [other]) w) (x : Transfer × List Sysex) (hx : x ∈ ts) :
    ∃ P : Sysex → Bool, (∀ m, belongs x.1 m = .ok (P m)) ∧ w.filter P = x.2 := by
  have hcar : ∀ y ∈ ts, Carries y.1 y.2 := fun y hy => carries_of_made (hts y hy).1 (hts y hy).2
  obtain ⟨i, hlt, hi⟩ := List.getElem_of_mem hx
  let P : Sysex → Bool := fun m => match belongs x.1 m with
    | .ok b => b
    | .error _ => false
  have hP : ∀ m b, belongs x.1 m = .ok b → P m = b := fun m b h => by show (match belongs x.1 m with | .ok b => b | .error _ => false) = b; rw [h]
  have hbel : ∀ m, belongs x.1 m = .ok (P m) := by
    intro m
    obtain ⟨v, hv⟩ := C84_receiver_safe x.1 {} m
    cases hb : belongs x.1 m with
    | ok b => rw [hP m b hb]
    | error e => unfold Inbox.take at hv; rw [hb] at hv; cases hv
  refine ⟨P, hbel, ?_⟩
  refine select_sender ts Prod.snd other w hw P i x (List.getElem?_eq_some_iff.2 ⟨hlt, hi⟩) (fun m hm => ?_) (fun j y hj hy m hm => ?_)
    (fun m hm => hP m _ (hother m hm x hx))
  · exact hP m _ (by rw [belongs_carried (hcar x hx) hm]; simp)
  · refine hP m _ ?_
    rw [belongs_carried (hcar y (List.mem_of_getElem? hy)) hm]
    obtain ⟨hjl, hjt⟩ := List.getElem?_eq_some_iff.1 hy
    have hd : Distinct y.1 x.1 := by
      rw [List.pairwise_iff_getElem] at hdist
      rcases Nat.lt_or_gt_of_ne hj with h | h
      · have := hdist j i hjl hlt h
        rw [hjt, hi] at this; exact this
      · have := hdist i j hlt hjl h
        rw [hjt, hi] at this; exact this.symm
    rcases hd with h | h | h <;> simp [h]

/-- C84: the messages of any number of transfers by the same or different senders, with different subtypes, sources or request ids,
come in any order in which those of each transfer are in theirs, between other messages that do not belong to them. Whatever part of
the messages has come, the receiver of a transfer has the header and some number of chunks from the first on, and knows whether that
is all; in the end it has the header and all data. -/
theorem C84_receiver (ts : List (Transfer × List Sysex)) (hts : ∀ x ∈ ts, x.1.Ok ∧ MadeFor x.1 x.2)
    (hdist : ts.Pairwise fun x y => Distinct x.1 y.1) (other : List Sysex) (hother : ∀ m ∈ other, ∀ x ∈ ts, belongs x.1 m = .ok false)
    (w : List Sysex) (hw : Interleaved (ts.map Prod.snd ++ [other]) w) (x : Transfer × List Sysex) (hx : x ∈ ts) :
    (∀ some, some <+: w → ∃ k, k ≤ x.1.chunks.length ∧ ({} : Inbox).takeAll x.1 some =
      .ok ⟨if k = 0 then [] else x.1.header, (x.1.chunks.take k).flatten, decide (k = x.1.chunks.length)⟩) ∧
    ({} : Inbox).takeAll x.1 w = .ok ⟨x.1.header, x.1.chunks.flatten, true⟩ := by
  obtain ⟨P, hbel, hsel⟩ := selects ts hts hdist other hother w hw x hx
  have hcar := carries_of_made (hts x hx).1 (hts x hx).2
  obtain ⟨-, -, -, -, -, -, hne, hlen, -⟩ := (hts x hx).1
  have hpos : 0 < x.1.chunks.length := List.length_pos_iff.2 hne
  have hfirst := takeAll_first hcar hlen
  have hl := hcar.1
  refine ⟨fun some hsome => ?_, ?_⟩
  · rw [takeAll_filter P some fun m _ => hbel m]
    have hpre : some.filter P <+: x.2 := hsel ▸ hsome.filter P
    have e := List.prefix_iff_eq_take.1 hpre
    have hk : (some.filter P).length ≤ x.2.length := hpre.length_le
    refine ⟨(some.filter P).length, by omega, ?_⟩
    rw [e, hfirst _ (by omega)]
    have : (List.take (some.filter P).length x.2).length = (some.filter P).length := by rw [List.length_take]; omega
    rw [this]
    congr 2
    rw [decide_eq_decide]
    omega
  · rw [takeAll_filter P w fun m _ => hbel m, hsel]
    have := hfirst x.2.length (Nat.le_refl _)
    rw [List.take_length, hl, List.take_length] at this
    rw [this]
    simp [show x.1.chunks.length ≠ 0 by omega]

/-- C84: all the way, over sysex7 packets: the messages are sent by `send_sysex7`, each in any group, one after the other. The packets,
possibly with other packets that are not sysex7 between them, are given to a collector that has received anything before. What the
collector delivers gives every receiver its transfer. -/
theorem C84_transfers (hist : List Packet) (ts : List (Transfer × List Sysex)) (hts : ∀ x ∈ ts, x.1.Ok ∧ MadeFor x.1 x.2)
    (hdist : ts.Pairwise fun x y => Distinct x.1 y.1) (other : List Sysex)
    (hother : ∀ m ∈ other, Sendable7 (m, 0) ∧ ∀ x ∈ ts, belongs x.1 m = .ok false)
    (w : List (Sysex × Byte)) (hw : Interleaved (ts.map Prod.snd ++ [other]) (w.map Prod.fst)) (hg : ∀ m ∈ w, m.2 < 16) :
    ∃ sent, w.mapM (fun m => sendSysex7 m.1 m.2) = .ok sent ∧
      ∀ qs : List Packet, qs.filter (fun p => decide (IsSysex7 p)) = sent.flatten →
      ∃ c before c' delivered, ({} : Collector7).feedAll hist = .ok (c, before) ∧ c.feedAll qs = .ok (c', delivered) ∧
        ∀ x ∈ ts, ({} : Inbox).takeAll x.1 delivered = .ok ⟨x.1.header, x.1.chunks.flatten, true⟩ := by
  have hsend : ∀ m ∈ w, Sendable7 m := by
    intro m hm
    have hmem : m.1 ∈ w.map Prod.fst := List.mem_map_of_mem hm
    obtain ⟨l, hl, hml⟩ := hw.mem hmem
    rcases List.mem_append.1 hl with hl | hl
    · obtain ⟨x, hx, rfl⟩ := List.mem_map.1 hl
      obtain ⟨i, hi, e⟩ := List.getElem_of_mem hml
      have hc := carries_of_made (hts x hx).1 (hts x hx).2
      obtain ⟨h1, h2, -⟩ := property_valid (hc.2 i _ (x.1.chunks[i]'(hc.1 ▸ hi)) (List.getElem?_eq_getElem hi) (List.getElem?_eq_getElem _))
      rw [e] at h1 h2
      exact sendable_of_view (v := ⟨"property_data_message_view", PropertyDataView.validate, [0x34, 0x35, 0x36, 0x37, 0x38, 0x39, 0x3F]⟩)
        (by simp [views]) h1 h2 (hg m hm)
    · rw [List.mem_singleton] at hl
      subst hl
      obtain ⟨⟨h1, h2, -⟩, -⟩ := hother _ hml
      exact ⟨h1, h2, hg m hm⟩
  obtain ⟨sent, hs, -⟩ := C18_send_succeeds w hsend
  refine ⟨sent, hs, fun qs hq => ?_⟩
  obtain ⟨c, before, c', h1, h2⟩ := C18_sysex7_round_trip hist w hsend sent hs qs hq
  exact ⟨c, before, c', _, h1, h2, fun x hx => (C84_receiver ts hts hdist other (fun m hm => (hother m hm).2) _ hw x hx).2⟩

/-! ## Lost messages -/

theorem sublist_front {α : Type} {l ms : List α} (h : l.Sublist ms) : ∃ k rest, k ≤ ms.length ∧ l = ms.take k ++ rest ∧
    (rest = [] ∨ rest ≠ [] ∧ rest.Sublist (ms.drop (k + 1))) := by
  induction h with
  | slnil => exact ⟨0, [], Nat.le_refl _, rfl, Or.inl rfl⟩
  | @cons l ms a h _ =>
    refine ⟨0, l, Nat.zero_le _, rfl, ?_⟩
    by_cases hl : l = []
    · exact Or.inl hl
    · exact Or.inr ⟨hl, h⟩
  | @cons_cons l ms a h ih =>
    obtain ⟨k, rest, h1, h2, h3⟩ := ih
    exact ⟨k + 1, rest, Nat.succ_le_succ h1, by rw [h2]; rfl, h3⟩

theorem counting_property {t : Transfer} {b : CountingInbox} {m : Sysex} {st dev : Byte} {src dst : Word} {req : Byte} {header : List Byte}
    {n i : U16} {chunk : List Byte} (h : IsPropertyMessage m st dev src dst req header n i chunk) (hb : belongs t m = .ok true) :
    b.take t m = .ok (if b.broken || decide (i.toNat ≠ b.next) then { b with broken := true, complete := false }
      else ⟨if i = 1 then header else b.header, b.data ++ chunk, b.next + 1, false, decide (i = n)⟩) := by
  obtain ⟨-, -, -, h3, h4, h5, -, h7⟩ := h
  unfold CountingInbox.take
  rw [hb, ok_bind, if_pos rfl, h5, ok_bind, h4, ok_bind, h3, ok_bind, h7, ok_bind]
  rfl

theorem counting_filter {t : Transfer} (P : Sysex → Bool) (ms : List Sysex) (h : ∀ m ∈ ms, belongs t m = .ok (P m)) (b : CountingInbox) :
    b.takeAll t ms = b.takeAll t (ms.filter P) := by
  induction ms generalizing b with
  | nil => rfl
  | cons m ms ih =>
    have hm := h m (by simp)
    have ih := fun b => ih (fun x hx => h x (by simp [hx])) b
    unfold CountingInbox.takeAll at ih ⊢
    rw [List.foldlM_cons]
    cases hp : P m
    · rw [hp] at hm
      have : b.take t m = .ok b := by
        unfold CountingInbox.take
        rw [hm, ok_bind, if_neg (by decide)]
        rfl
      rw [this, ok_bind, ih, List.filter_cons_of_neg (by simp [hp])]
    · rw [List.filter_cons_of_pos hp, List.foldlM_cons]
      congr 1
      funext b'
      exact ih b'

theorem carried {t : Transfer} {ms : List Sysex} (hm : Carries t ms) {k : Nat} (hk : k < ms.length) : ∃ (hc : k < t.chunks.length),
    IsPropertyMessage ms[k] t.subtype t.deviceId t.source t.dest t.requestId (if k = 0 then t.header else [])
      (BitVec.ofNat 16 t.chunks.length) (BitVec.ofNat 16 (k + 1)) t.chunks[k] ∧ belongs t ms[k] = .ok true := by
  have hkc : k < t.chunks.length := hm.1 ▸ hk
  have hprop := hm.2 k ms[k] t.chunks[k] (List.getElem?_eq_getElem hk) (List.getElem?_eq_getElem hkc)
  exact ⟨hkc, hprop, by rw [belongs_property hprop]; simp⟩

theorem counting_first {t : Transfer} {ms : List Sysex} (hm : Carries t ms) (hlen : t.chunks.length ≤ 16383) (k : Nat) (hk : k ≤ ms.length) :
    ({} : CountingInbox).takeAll t (ms.take k) =
      .ok ⟨if k = 0 then [] else t.header, (t.chunks.take k).flatten, k + 1, false, decide (k ≠ 0 ∧ k = t.chunks.length)⟩ := by
  induction k with
  | zero => rfl
  | succ k ih =>
    have hk' : k < ms.length := by omega
    obtain ⟨hkc, hprop, hb⟩ := carried hm hk'
    have e0 : (BitVec.ofNat 16 (k + 1)).toNat = k + 1 := by rw [BitVec.toNat_ofNat]; omega
    have e1 : (BitVec.ofNat 16 (k + 1) = 1) ↔ k = 0 := by
      rw [BitVec.toNat_inj.symm, e0]
      show k + 1 = 1 ↔ _
      omega
    have e2 : (BitVec.ofNat 16 (k + 1) = BitVec.ofNat 16 t.chunks.length) ↔ k + 1 = t.chunks.length := by
      rw [BitVec.toNat_inj.symm, e0, BitVec.toNat_ofNat, Nat.mod_eq_of_lt (by omega)]
    unfold CountingInbox.takeAll at ih ⊢
    rw [List.take_succ_eq_append_getElem hk', List.foldlM_append, ih (by omega), ok_bind, List.foldlM_cons, counting_property hprop hb, ok_bind,
      List.foldlM_nil, List.take_succ_eq_append_getElem hkc, List.flatten_append]
    simp only [e0, e1, e2]
    by_cases h0 : k = 0 <;> simp [h0] <;> rfl

theorem counting_broken {t : Transfer} {ms : List Sysex} (hm : Carries t ms) (l : List Sysex) (hl : ∀ m ∈ l, m ∈ ms) (b : CountingInbox)
    (hb : b.broken = true) (hc : b.complete = false) : b.takeAll t l = .ok b := by
  induction l with
  | nil => rfl
  | cons m l ih =>
    obtain ⟨i, hi, rfl⟩ := List.getElem_of_mem (hl m (by simp))
    obtain ⟨hic, hprop, hbel⟩ := carried hm hi
    have ih := ih fun x hx => hl x (by simp [hx])
    unfold CountingInbox.takeAll at ih ⊢
    rw [List.foldlM_cons, counting_property hprop hbel, hb, Bool.true_or, if_pos rfl, ok_bind]
    have : { b with broken := true, complete := false } = b := by cases b; simp_all
    rw [this, ih]

/-- C84: if messages are lost, a receiver can tell from the numbers of the chunks: it counts them, and when it considers the transfer
complete it has the header and all data. It considers it complete exactly when no message of the transfer was lost. -/
theorem C84_lost_messages (ts : List (Transfer × List Sysex)) (hts : ∀ x ∈ ts, x.1.Ok ∧ MadeFor x.1 x.2)
    (hdist : ts.Pairwise fun x y => Distinct x.1 y.1) (other : List Sysex) (hother : ∀ m ∈ other, ∀ x ∈ ts, belongs x.1 m = .ok false)
    (w : List Sysex) (hw : Interleaved (ts.map Prod.snd ++ [other]) w) (got : List Sysex) (hgot : got.Sublist w)
    (x : Transfer × List Sysex) (hx : x ∈ ts) :
    ∃ b, ({} : CountingInbox).takeAll x.1 got = .ok b ∧ (b.complete = true ↔ x.2.Sublist got) ∧
      (b.complete = true → b.header = x.1.header ∧ b.data = x.1.chunks.flatten) := by
  obtain ⟨P, hbel, hsel⟩ := selects ts hts hdist other hother w hw x hx
  have hcar := carries_of_made (hts x hx).1 (hts x hx).2
  obtain ⟨-, -, -, -, -, -, hne, hlen, -⟩ := (hts x hx).1
  have hpos : 0 < x.1.chunks.length := List.length_pos_iff.2 hne
  have hl := hcar.1
  have hsub : (got.filter P).Sublist x.2 := hsel ▸ hgot.filter P
  have hall : ∀ m ∈ x.2, P m = true := fun m hm => by rw [← hsel] at hm; exact (List.mem_filter.1 hm).2
  have hiff : x.2.Sublist got ↔ x.2.length ≤ (got.filter P).length := by
    refine ⟨fun h => ?_, fun h => ?_⟩
    · have := (h.filter P).length_le
      rwa [List.filter_eq_self.2 hall] at this
    · rw [← hsub.eq_of_length_le h]
      exact List.filter_sublist
  rw [hiff, counting_filter P got fun m _ => hbel m]
  obtain ⟨k, rest, hk, e, hrest⟩ := sublist_front hsub
  have hfirst := counting_first hcar hlen k hk
  rcases hrest with rfl | ⟨hrne, hrest⟩
  · rw [List.append_nil] at e
    refine ⟨_, by rw [e]; exact hfirst, ?_, ?_⟩
    · rw [e, List.length_take, decide_eq_true_iff]
      omega
    · intro h
      rw [decide_eq_true_iff] at h
      obtain ⟨h0, rfl⟩ := h
      exact ⟨if_neg h0, by rw [List.take_length]⟩
  · obtain ⟨m, r, rfl⟩ := List.exists_cons_of_ne_nil hrne
    have hm : m ∈ x.2.drop (k + 1) := hrest.subset (by simp)
    obtain ⟨i, hi, rfl⟩ := List.getElem_of_mem hm
    rw [List.length_drop] at hi
    rw [List.getElem_drop] at e hrest
    obtain ⟨hic, hprop, hb⟩ := carried hcar (show k + 1 + i < x.2.length by omega)
    have e0 : (BitVec.ofNat 16 (k + 1 + i + 1)).toNat = k + 1 + i + 1 := by rw [BitVec.toNat_ofNat]; omega
    have hr : ∀ y ∈ r, y ∈ x.2 := fun y hy => List.mem_of_mem_drop (hrest.subset (List.mem_cons_of_mem _ hy))
    refine ⟨⟨if k = 0 then [] else x.1.header, (x.1.chunks.take k).flatten, k + 1, true, false⟩, ?_, ?_, ?_⟩
    · rw [e]
      unfold CountingInbox.takeAll at hfirst ⊢
      rw [List.foldlM_append, hfirst, ok_bind, List.foldlM_cons, counting_property hprop hb, ok_bind, e0]
      rw [if_pos (by simp; omega)]
      exact counting_broken hcar r hr _ rfl rfl
    · have := hrest.length_le
      rw [List.length_drop] at this
      rw [e, List.length_append, List.length_take]
      simp only [Bool.false_eq_true, false_iff]
      omega
    · intro h; cases h

/-! A reply in two chunks and a set inquiry in two chunks, between them an identity request. -/

def exampleReply : Transfer := ⟨0x35, 0x0123456, 0x0654321, 0x7F, 5, ascii "{\"status\":200}", [ascii "{\"a\":", ascii "[1]}"]⟩
def exampleSet : Transfer := ⟨0x36, 0x0123457, 0x0654321, 0x7F, 5, ascii "{\"resource\":\"X-Gain\"}", [ascii "1", ascii "0"]⟩
def exampleOther : Sysex := ⟨0x7E0000, [0x7F, 0x06, 0x01]⟩

def Made (r : Except Fault (List Sysex)) : List Sysex := match r with
  | .ok ms => ms
  | .error _ => []

def exampleReplies : List Sysex := Made (replyMessages exampleReply)
def exampleSets : List Sysex := Made (setMessages exampleSet (ascii "X-Gain"))

example : ∃ r0 r1 s0 s1, exampleReplies = [r0, r1] ∧ exampleSets = [s0, s1] ∧ exampleReply.Ok ∧ exampleSet.Ok ∧
    MadeFor exampleReply exampleReplies ∧ MadeFor exampleSet exampleSets ∧ Distinct exampleReply exampleSet ∧
    Sendable7 (exampleOther, 0) ∧ belongs exampleReply exampleOther = .ok false ∧ belongs exampleSet exampleOther = .ok false ∧
    Interleaved ([(exampleReply, exampleReplies), (exampleSet, exampleSets)].map Prod.snd ++ [[exampleOther]]) [s0, r0, exampleOther, s1, r1] := by
  refine ⟨_, _, _, _, rfl, rfl, ?_, ?_, Or.inl ⟨rfl, rfl⟩, Or.inr ⟨rfl, ascii "X-Gain", ?_, rfl⟩, by decide, ?_, by decide, by decide, ?_⟩
  · unfold Spec.Transfer.Ok Spec.Seven; decide
  · unfold Spec.Transfer.Ok Spec.Seven; decide
  · decide
  · decide
  · exact .next _ 1 _ _ _ rfl (.next _ 0 _ _ _ rfl (.next _ 2 _ _ _ rfl (.next _ 1 _ _ _ rfl (.next _ 0 _ _ _ rfl (.nothing _ (by decide))))))

/-- What is received before the last message is not complete. -/
example : ({} : Inbox).takeAll exampleReply (exampleReplies.take 1) = .ok ⟨ascii "{\"status\":200}", ascii "{\"a\":", false⟩ := by decide +kernel

/-- With its first message lost, the reply is not complete. -/
example : ({} : CountingInbox).takeAll exampleReply (exampleReplies.drop 1) = .ok ⟨[], [], 1, true, false⟩ := by decide +kernel

/-- With the set inquiry's first message lost, it still is. -/
example : ({} : CountingInbox).takeAll exampleReply (exampleReplies.take 1 ++ exampleSets.drop 1 ++ exampleReplies.drop 1) =
    .ok ⟨ascii "{\"status\":200}", ascii "{\"a\":[1]}", 3, false, true⟩ := by decide +kernel

end Midi
