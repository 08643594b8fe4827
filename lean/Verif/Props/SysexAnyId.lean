import Verif.Props.Collector7
import Verif.Props.Collector8

/-!
# Properties C17, C18, C19, C20 for every manufacturer id

`send_sysex7` and `send_sysex8` take any 32 bit number as manufacturer id. This file says what becomes of messages whose
manufacturer id does not exist, and proves that exactly the others survive the transfer.
-/

namespace Midi
open Spec

namespace Spec

/-- The manufacturer id bytes in the packets of `send_sysex7`, for any 32 bit number. -/
def sentId7 (id : Word) : List Byte :=
  if id.toNat % 65536 = 0 then [BitVec.ofNat 8 (id.toNat / 65536 % 128)]
  else [BitVec.ofNat 8 (id.toNat / 65536 % 128), BitVec.ofNat 8 (id.toNat / 256 % 128), BitVec.ofNat 8 (id.toNat % 128)]

/-- The manufacturer id bytes in the packets of `send_sysex8`, for any 32 bit number. -/
def sentId8 (id : Word) : List Byte :=
  if id.toNat % 65536 = 0 then [0, BitVec.ofNat 8 (id.toNat / 65536 % 128)]
  else [BitVec.ofNat 8 (128 + id.toNat / 256 % 128), BitVec.ofNat 8 (id.toNat % 128)]

/-- The number of manufacturer id bytes that `total_data_size()` counts. -/
def countedId (id : Word) : Nat := if id = 0 then 0 else if id.toNat / 65536 % 256 = 0 then 3 else 1

/-- The messages `send_sysex7` frames wrongly: without manufacturer id and with six data bytes, or with four or five data
bytes and a manufacturer id that has bits both in the first and in the other byte positions, or only above the third byte. -/
def BadLength7 (s : Sysex) : Prop :=
  (s.manufacturerID = 0 ∧ s.data.length = 6) ∨
  (s.manufacturerID.toNat % 65536 ≠ 0 ∧ s.manufacturerID.toNat / 65536 % 256 ≠ 0 ∧
    (s.data.length = 4 ∨ s.data.length = 5)) ∨
  (s.manufacturerID ≠ 0 ∧ s.manufacturerID.toNat % 2 ^ 24 = 0 ∧ (s.data.length = 4 ∨ s.data.length = 5))

instance (s : Sysex) : Decidable (BadLength7 s) := inferInstanceAs (Decidable (_ ∨ _))

end Spec

/-! ## Sending -/

theorem totalDataSize_any (s : Sysex) : s.totalDataSize = countedId s.manufacturerID + s.data.length := by
  unfold Sysex.totalDataSize countedId
  have e := (word_and_eq s.manufacturerID).2
  by_cases h0 : s.manufacturerID = 0
  · rw [if_neg (by simpa using h0), if_pos h0]; omega
  · rw [if_pos h0, if_neg h0]
    by_cases h : s.manufacturerID.toNat / 65536 % 256 = 0
    · rw [if_neg (by rw [not_not, e]; exact h), if_pos h]; omega
    · rw [if_pos (by rw [ne_eq, e]; exact h), if_neg h]; omega

theorem sentId7_eq (id : Word) : (if id &&& 0x00FFFF ≠ 0 then
      [((id >>> 16) &&& 0x7F).setWidth 8, ((id >>> 8) &&& 0x7F).setWidth 8, (id &&& 0x7F).setWidth 8]
    else [((id >>> 16) &&& 0x7F).setWidth 8] : List Byte) = sentId7 id := by
  rw [id7_eq, id7_eq, id7_eq0]
  have e := (word_and_eq id).1
  unfold sentId7
  by_cases h : id.toNat % 65536 = 0
  · rw [if_neg (by rw [not_not, e]; exact h), if_pos h]; rfl
  · rw [if_pos (by rw [ne_eq, e]; exact h), if_neg h]; rfl

theorem sentId8_eq (id : Word) : (if id &&& 0x00FFFF ≠ 0 then
      [(0x80 : Byte) + ((id >>> 8) &&& 0x7F).setWidth 8, (id &&& 0x7F).setWidth 8]
    else [0, ((id >>> 16) &&& 0x7F).setWidth 8] : List Byte) = sentId8 id := by
  rw [id7_eq, id7_eq, id7_eq0]
  have e := (word_and_eq id).1
  unfold sentId8
  by_cases h : id.toNat % 65536 = 0
  · rw [if_neg (by rw [not_not, e]; exact h), if_pos h]; rfl
  · rw [if_pos (by rw [ne_eq, e]; exact h), if_neg h, BitVec.ofNat_add]
    rfl

theorem sentId7_length (id : Word) : (sentId7 id).length = if id.toNat % 65536 = 0 then 1 else 3 := by
  unfold sentId7; split <;> rfl

theorem sentId7_lt (id : Word) : ∀ b ∈ sentId7 id, b < 0x80 := by
  have : ∀ n : Nat, (BitVec.ofNat 8 (n % 128)) < (0x80 : Byte) := by
    intro n
    rw [BitVec.lt_def, BitVec.toNat_ofNat]
    show _ < 128
    omega
  unfold sentId7
  intro b hb
  split at hb <;> simp only [List.mem_cons, List.not_mem_nil, or_false] at hb
  · rw [hb]; exact this _
  · rcases hb with rfl | rfl | rfl <;> exact this _

theorem badLength7_iff (s : Sysex) : ¬ BadLength7 s ↔
    (s.totalDataSize ≤ 6 ↔ (sentId7 s.manufacturerID).length + s.data.length ≤ 6) := by
  rw [totalDataSize_any, sentId7_length]
  unfold countedId BadLength7
  have h0 : s.manufacturerID = 0 ↔ s.manufacturerID.toNat = 0 := by
    rw [← BitVec.toNat_inj]; rfl
  simp only [ne_eq, h0]
  generalize s.manufacturerID.toNat = n
  generalize s.data.length = d
  by_cases c0 : n = 0
  · subst c0; simp; omega
  · rw [if_neg c0]
    have h24 : n % 2 ^ 24 = 0 ↔ n % 65536 = 0 ∧ n / 65536 % 256 = 0 := by omega
    rw [h24]
    by_cases c1 : n % 65536 = 0 <;> by_cases c2 : n / 65536 % 256 = 0 <;>
      simp only [c0, c1, c2, if_true, if_false, not_true_eq_false, not_false_eq_true, true_and, false_and, and_false, and_self,
        false_or, or_false] <;>
      omega

/-- C17, for every message whatsoever: `send_sysex7` fails no assertion and emits full sysex7 packets in the requested group
with the manufacturer id bytes and the data, reduced to 7 bit, as payload. They are correctly framed if and only if the
message is none of the few of `BadLength7`, all of which have no genuine manufacturer id. -/
theorem C17_any_id (s : Sysex) (g : Byte) (hg : g < 16) :
    ∃ ps, sendSysex7 s g = .ok ps ∧
      (∀ p ∈ ps, IsSysex7 p ∧ groupOf p = g.toNat ∧ payload7 p ≠ []) ∧
      (Framed (ps.map formatCode) ↔ ¬ BadLength7 s) ∧
      (∀ p ∈ ps.dropLast, (payload7 p).length = 6) ∧
      ps.flatMap payload7 = sentId7 s.manufacturerID ++ s.data.map (· &&& 0x7F) := by
  have he := sendSysex7_any s hg
  rw [sentId7_eq] at he
  refine ⟨_, he, ?_⟩
  have hl := sentId7_length s.manufacturerID
  have hi : 1 ≤ (sentId7 s.manufacturerID).length ∧ (sentId7 s.manufacturerID).length ≤ 3 := by
    rw [hl]; split <;> omega
  have key : ∃ cs, chunks 6 (· &&& 0x7F) (if s.totalDataSize ≤ 6 then .complete else .start)
        (sentId7 s.manufacturerID) s.data = cs ∧ (Framed (cs.map (·.1.code.toNat)) ↔ ¬ BadLength7 s) ∧
      cs.flatMap (·.2) = sentId7 s.manufacturerID ++ s.data.map (· &&& 0x7F) ∧
      (∀ c ∈ cs.dropLast, c.2.length = 6) ∧ (∀ c ∈ cs, 0 < c.2.length ∧ c.2.length ≤ 6) := by
    refine ⟨_, rfl, ?_⟩
    rw [badLength7_iff]
    generalize hf : (if s.totalDataSize ≤ 6 then Format.complete else Format.start) = f
    have hfc : f.code.toNat = if s.totalDataSize ≤ 6 then 0 else 1 := by
      rw [← hf]; split <;> rfl
    by_cases h : (sentId7 s.manufacturerID).length + s.data.length ≤ 6
    · rw [chunks_one _ _ _ _ (by omega) (by omega) h]
      refine ⟨?_, by simp, by simp, by simp; omega⟩
      simp only [List.map_cons, List.map_nil, hfc, h, iff_true]
      by_cases ht : s.totalDataSize ≤ 6
      · simp only [ht, if_true, iff_true]; exact Or.inl rfl
      · simp only [ht, if_false, iff_false]
        rintro (h | ⟨n, h⟩) <;> simp at h
    · obtain ⟨⟨k, hk⟩, hf, hd, ha⟩ :=
        chunks_framed (N := 6) (· &&& 0x7F) _ f (sentId7 s.manufacturerID) s.data rfl (by omega) (by omega)
      refine ⟨?_, hf, hd, ha⟩
      simp only [hk, hfc, h, iff_false]
      by_cases ht : s.totalDataSize ≤ 6
      · simp only [ht, if_true, not_true_eq_false, iff_false]
        rintro (h | ⟨n, h⟩) <;> simp at h
      · simp only [ht, if_false, not_false_eq_true, iff_true]; exact Or.inr ⟨k, rfl⟩
  obtain ⟨cs, hcs, hfr, hcat, hdl, hall⟩ := key
  rw [hcs]
  refine ⟨?_, ?_, ?_, ?_⟩
  · intro p hp
    obtain ⟨c, hc, rfl⟩ := List.mem_map.1 hp
    have := hall c hc
    refine ⟨isSysex7_mk7 _ hg this.2, groupOf_mk7 _ hg, ?_⟩
    rw [payload7_mk7 _ _ this.2]
    intro h; rw [h] at this; simp at this
  · rw [List.map_map]
    convert hfr using 2
    apply List.map_congr_left
    intro c hc
    exact formatCode_mk7 _ _ (hall c hc).2
  · intro p hp
    rw [← List.map_dropLast] at hp
    obtain ⟨c, hc, rfl⟩ := List.mem_map.1 hp
    rw [payload7_mk7 _ _ (hall c (List.dropLast_subset _ hc)).2, hdl c hc]
  · rw [List.flatMap_map, ← hcat]
    apply flatMap_congr_mem
    intro c hc
    exact payload7_mk7 _ _ (hall c hc).2

/-- C17: no message with a genuine manufacturer id is framed wrongly. -/
theorem C17_genuine_never_bad (s : Sysex) (h : GenuineId s.manufacturerID) : ¬ BadLength7 s := by
  have h0 : s.manufacturerID = 0 ↔ s.manufacturerID.toNat = 0 := by
    rw [← BitVec.toNat_inj]; rfl
  unfold BadLength7
  rw [ne_eq, h0]
  unfold GenuineId OneByteId ThreeByteId at h
  omega

example : BadLength7 ⟨0, [1, 2, 3, 4, 5, 6]⟩ ∧ BadLength7 ⟨0x410001, [1, 2, 3, 4]⟩ ∧ BadLength7 ⟨0x01000000, [1, 2, 3, 4]⟩ ∧
    ¬ BadLength7 ⟨0xFFFFFFFF, [1, 2, 3]⟩ := by decide

/-! ## Receiving -/

theorem takeRun_spec (r : List (Nat × List Byte)) : ∀ (d : List Byte) (q : List Byte × List (Nat × List Byte)),
    takeRun d r = some q → ∃ pre, r = pre ++ q.2 ∧ q.1 = d ++ pre.flatMap Prod.snd := by
  induction r with
  | nil => intro d q h; simp [takeRun] at h
  | cons x r ih =>
    obtain ⟨c, e⟩ := x
    intro d q h
    unfold takeRun at h
    split at h
    · next heq =>
      simp only [List.cons.injEq, Prod.mk.injEq] at heq
      obtain ⟨⟨rfl, rfl⟩, rfl⟩ := heq
      obtain ⟨pre, h1, h2⟩ := ih _ _ h
      exact ⟨(2, e) :: pre, by rw [h1]; rfl, by rw [h2]; simp⟩
    · next heq =>
      simp only [List.cons.injEq, Prod.mk.injEq] at heq
      obtain ⟨⟨rfl, rfl⟩, rfl⟩ := heq
      obtain rfl := Option.some.inj h
      exact ⟨[(3, e)], rfl, by simp⟩
    · simp at h

theorem decode_infix (l : List (Nat × List Byte)) : ∀ m ∈ decode l, m <:+: l.flatMap Prod.snd := by
  have step : ∀ (x : Nat × List Byte) (r : List (Nat × List Byte)) (m : List Byte),
      m <:+: r.flatMap Prod.snd → m <:+: (x :: r).flatMap Prod.snd := by
    intro x r m h
    rw [List.flatMap_cons]
    exact h.trans (List.suffix_append _ _).isInfix
  induction l using decode.induct with
  | case1 => intro m h; simp [decode] at h
  | case2 d r ih =>
    intro m h
    rw [decode, List.mem_cons] at h
    rcases h with rfl | h
    · rw [List.flatMap_cons]
      exact (List.prefix_append _ _).isInfix
    · exact step _ _ _ (ih m h)
  | case3 d r q hq ih =>
    intro m h
    rw [decode_start, hq] at h
    obtain ⟨pre, h1, h2⟩ := takeRun_spec r d q hq
    rcases List.mem_cons.1 h with rfl | h
    · rw [h1, h2, List.flatMap_cons, List.flatMap_append, ← List.append_assoc]
      exact (List.prefix_append _ _).isInfix
    · refine step _ _ _ ?_
      rw [h1, List.flatMap_append]
      exact (ih m h).trans (List.suffix_append _ _).isInfix
  | case4 d r hq ih =>
    intro m h
    rw [decode_start, hq] at h
    exact step _ _ _ (ih m h)
  | case5 x r h0 h1 ih =>
    intro m h
    obtain ⟨c, e⟩ := x
    rw [decode] at h
    · exact step _ _ _ (ih m h)
    · exact h0
    · exact h1

/-- C21: every message delivered consists only of consecutive payload of the sysex7 packets. -/
theorem C21_only_payload (ps : List Packet) (c : Collector7) (out : List Sysex)
    (h : ({} : Collector7).feedAll ps = .ok (c, out)) : ∀ m ∈ out,
    ∃ pl, m = message7 pl ∧ pl <:+: (ps.filter fun p => decide (IsSysex7 p)).flatMap payload7 := by
  obtain ⟨c', h'⟩ := C21_collector_decodes ps
  rw [h'] at h
  obtain ⟨_, rfl⟩ := Prod.mk.inj (Except.ok.inj h)
  intro m hm
  rw [List.mem_map] at hm
  obtain ⟨x, hx, rfl⟩ := hm
  refine ⟨x, rfl, ?_⟩
  have := decode_infix _ x hx
  unfold items7 at this
  rw [List.flatMap_map] at this
  exact this

example := C21_only_payload [⟨0x30127D02, 0, 0, 0⟩, ⟨0x30310300, 0, 0, 0⟩] _ _ rfl

/-- The messages with a payload of 7 bit bytes. -/
theorem message7_kind (pl : List Byte) (h : ∀ b ∈ pl, b < 0x80) :
    (GenuineId (message7 pl).manufacturerID ∨
      (message7 pl).manufacturerID = 0 ∧ (message7 pl).data.length = pl.length - 3) ∧
    ∀ b ∈ (message7 pl).data, b < 0x80 := by
  have lt : ∀ b : Byte, b < 0x80 → b.toNat < 128 := fun b hb => hb
  match pl, h with
  | [], h => exact ⟨Or.inr ⟨rfl, rfl⟩, by simp [message7]⟩
  | a :: d, h =>
    by_cases ha : a = 0
    · subst ha
      match d, h with
      | [], h => exact ⟨Or.inr ⟨rfl, rfl⟩, by simp [message7]⟩
      | [b], h =>
        have hb := lt b (h b (by simp))
        have e : message7 [0, b] = ⟨BitVec.ofNat 32 (b.toNat * 256), []⟩ := rfl
        rw [e]
        refine ⟨?_, by simp⟩
        by_cases h0 : b.toNat = 0
        · right; rw [h0]; exact ⟨rfl, rfl⟩
        · left; right
          unfold ThreeByteId
          rw [BitVec.toNat_ofNat]
          omega
      | b :: c :: d, h =>
        have hb := lt b (h b (by simp))
        have hc := lt c (h c (by simp))
        have e : message7 (0 :: b :: c :: d) = ⟨BitVec.ofNat 32 (b.toNat * 256 + c.toNat), d⟩ := rfl
        rw [e]
        refine ⟨?_, fun x hx => h x (by simp [show x ∈ d from hx])⟩
        by_cases h0 : b.toNat = 0 ∧ c.toNat = 0
        · right; rw [h0.1, h0.2]; exact ⟨rfl, by simp⟩
        · left; right
          unfold ThreeByteId
          rw [BitVec.toNat_ofNat]
          omega
    · have hb := lt a (h a (by simp))
      have e : message7 (a :: d) = ⟨BitVec.ofNat 32 (a.toNat * 65536), d⟩ := by
        simp only [message7, if_neg ha]
      have h0 : a.toNat ≠ 0 := by
        intro h0; exact ha (BitVec.eq_of_toNat_eq h0)
      rw [e]
      refine ⟨Or.inl (Or.inl ?_), fun x hx => h x (by simp [show x ∈ d from hx])⟩
      unfold OneByteId
      rw [BitVec.toNat_ofNat]
      omega

/-- C18, exactly which messages survive: a message sent with `send_sysex7` is received as exactly that message if and only if
its manufacturer id is genuine and its data are 7 bit, or it is the empty message. -/
theorem C18_exactly (s : Sysex) (g : Byte) (hg : g < 16) :
    ∃ ps c out, sendSysex7 s g = .ok ps ∧ ({} : Collector7).feedAll ps = .ok (c, out) ∧
      (out = [s] ↔ (GenuineId s.manufacturerID ∧ ∀ b ∈ s.data, b < 0x80) ∨ s = ⟨0, []⟩) := by
  obtain ⟨ps, hps, h1, _, _, h4⟩ := C17_any_id s g hg
  obtain ⟨c, hc⟩ := C21_collector_decodes ps
  refine ⟨ps, c, _, hps, hc, ?_, ?_⟩
  · intro ho
    obtain ⟨pl, hpl, hin⟩ := C21_only_payload ps c _ hc s (by rw [ho]; simp)
    rw [List.filter_eq_self.2 (fun p hp => decide_eq_true (h1 p hp).1), h4] at hin
    have h7 : ∀ b ∈ pl, b < 0x80 := by
      intro b hb
      have := hin.subset hb
      rw [List.mem_append] at this
      rcases this with h | h
      · exact sentId7_lt _ b h
      · obtain ⟨x, _, rfl⟩ := List.mem_map.1 h
        exact and7F_lt x
    have hk := message7_kind pl h7
    rw [← hpl] at hk
    rcases hk with ⟨hg | ⟨h0, hl⟩, hd⟩
    · exact Or.inl ⟨hg, hd⟩
    · right
      have := hin.length_le
      rw [List.length_append, List.length_map, sentId7_length, h0, if_pos (by rfl)] at this
      have hnil : s.data = [] := List.length_eq_zero_iff.1 (by omega)
      obtain ⟨id, d⟩ := s
      simp only at h0 hnil
      rw [h0, hnil]
  · rintro (⟨hid, hd⟩ | rfl)
    · have hs : [(s, g)].mapM (fun m : Sysex × Byte => sendSysex7 m.1 m.2) = .ok [ps] := by
        rw [List.mapM_cons, hps]; rfl
      obtain ⟨c1, b1, c2, e1, e2⟩ := C18_sysex7_round_trip [] [(s, g)] (by
        intro m hm; rw [List.mem_singleton] at hm; subst hm; exact ⟨hid, hd, hg⟩) [ps] hs ps
        (by rw [List.filter_eq_self.2 (fun p hp => decide_eq_true (h1 p hp).1)]; simp)
      have : c1 = {} := by
        have : ({} : Collector7).feedAll [] = .ok ({}, []) := rfl
        rw [this] at e1
        exact (Prod.mk.inj (Except.ok.inj e1)).1.symm
      rw [this, hc] at e2
      exact (Prod.mk.inj (Except.ok.inj e2)).2
    · have hf : ps = [mk7 .complete g [0]] := by
        have he := sendSysex7_any ⟨0, []⟩ hg
        rw [hps] at he
        exact Except.ok.inj he
      rw [items7_all (fun p hp => (h1 p hp).1), hf]
      simp only [List.map_cons, List.map_nil]
      rw [formatCode_mk7 _ _ (by decide), payload7_mk7 _ _ (by decide)]
      have : decode [(Format.complete.code.toNat, [0])] = [[0]] := by
        show decode [(0, [0])] = _
        rw [decode, decode]
      rw [this]
      rfl

example := C18_exactly ⟨0x7E0000, [0x7F, 0x0D, 0x20, 2, 1, 2, 3, 4, 5, 6, 7, 8]⟩ 5 (by decide)

/-- C18: a message without manufacturer id is received with its first two data bytes as manufacturer id. -/
theorem C18_no_id_changed : ∃ ps c, sendSysex7 ⟨0, [0x21, 0x09, 1]⟩ 0 = .ok ps ∧
    ({} : Collector7).feedAll ps = .ok (c, [⟨0x2109, [1]⟩]) := ⟨_, _, rfl, rfl⟩

/-! ## 8 bit sysex -/

/-- The messages `send_sysex8` frames wrongly, by the number of manufacturer id bytes that `total_data_size()` counts. -/
def Spec.BadCount8 (s : Sysex) : Prop :=
  (countedId s.manufacturerID = 3 ∧ s.data.length = 11) ∨ (countedId s.manufacturerID = 1 ∧ s.data.length = 12) ∨
    (countedId s.manufacturerID = 0 ∧ (s.data.length = 12 ∨ s.data.length = 13))

instance (s : Sysex) : Decidable (BadCount8 s) := inferInstanceAs (Decidable (_ ∨ _))

theorem badCount8_iff (s : Sysex) : ¬ BadCount8 s ↔ (s.totalDataSize ≤ 13 ↔ s.data.length ≤ 11) := by
  rw [totalDataSize_any]
  unfold BadCount8
  have : countedId s.manufacturerID = 0 ∨ countedId s.manufacturerID = 1 ∨ countedId s.manufacturerID = 3 := by
    unfold countedId; split <;> (try split) <;> simp
  omega

/-- C19, for every message whatsoever: `send_sysex8` emits full sysex8 packets with the requested group and stream id, with
two manufacturer id bytes and the data as payload. They are correctly framed if and only if the message is none of those of
`BadCount8`. -/
theorem C19_any_id (s : Sysex) (st g : Byte) (hg : g < 16) :
    ∃ ps, sendSysex8 s st g = .ok ps ∧
      (∀ p ∈ ps, IsSysex8 p ∧ groupOf p = g.toNat ∧ stream8 p = st ∧ payload8 p ≠ []) ∧
      (Framed (ps.map formatCode) ↔ ¬ BadCount8 s) ∧
      (∀ p ∈ ps.dropLast, (payload8 p).length = 13) ∧
      ps.flatMap payload8 = sentId8 s.manufacturerID ++ s.data := by
  have he := sendSysex8_any s st hg
  rw [sentId8_eq] at he
  refine ⟨_, he, ?_⟩
  have hi : (sentId8 s.manufacturerID).length = 2 := by unfold sentId8; split <;> rfl
  have key : ∃ cs, chunks 13 id (if s.totalDataSize ≤ 13 then .complete else .start)
        (sentId8 s.manufacturerID) s.data = cs ∧ (Framed (cs.map (·.1.code.toNat)) ↔ ¬ BadCount8 s) ∧
      cs.flatMap (·.2) = sentId8 s.manufacturerID ++ s.data ∧
      (∀ c ∈ cs.dropLast, c.2.length = 13) ∧ (∀ c ∈ cs, 0 < c.2.length ∧ c.2.length ≤ 13) := by
    refine ⟨_, rfl, ?_⟩
    rw [badCount8_iff]
    generalize hf : (if s.totalDataSize ≤ 13 then Format.complete else Format.start) = f
    have hfc : f.code.toNat = if s.totalDataSize ≤ 13 then 0 else 1 := by
      rw [← hf]; split <;> rfl
    by_cases h : s.data.length ≤ 11
    · rw [chunks_one _ _ _ _ (by omega) (by omega) (by omega)]
      refine ⟨?_, by simp, by simp, by simp; omega⟩
      simp only [List.map_cons, List.map_nil, hfc, h, iff_true]
      by_cases ht : s.totalDataSize ≤ 13
      · simp only [ht, if_true, iff_true]; exact Or.inl rfl
      · simp only [ht, if_false, iff_false]
        rintro (h | ⟨n, h⟩) <;> simp at h
    · obtain ⟨⟨k, hk⟩, hf, hd, ha⟩ :=
        chunks_framed (N := 13) id _ f (sentId8 s.manufacturerID) s.data rfl (by omega) (by omega)
      refine ⟨?_, by simpa using hf, hd, ha⟩
      simp only [hk, hfc, h, iff_false]
      by_cases ht : s.totalDataSize ≤ 13
      · simp only [ht, if_true, not_true_eq_false, iff_false]
        rintro (h | ⟨n, h⟩) <;> simp at h
      · simp only [ht, if_false, not_false_eq_true, iff_true]; exact Or.inr ⟨k, rfl⟩
  obtain ⟨cs, hcs, hfr, hcat, hdl, hall⟩ := key
  rw [hcs]
  refine ⟨?_, ?_, ?_, ?_⟩
  · intro p hp
    obtain ⟨c, hc, rfl⟩ := List.mem_map.1 hp
    have := hall c hc
    refine ⟨isSysex8_mk8 _ _ hg this.2, groupOf_mk8 _ _ hg, stream8_mk8 .., ?_⟩
    rw [payload8_mk8 _ _ _ this.2]
    intro h; rw [h] at this; simp at this
  · rw [List.map_map]
    convert hfr using 2
    apply List.map_congr_left
    intro c hc
    exact formatCode_mk8 _ _ _ (hall c hc).2
  · intro p hp
    rw [← List.map_dropLast] at hp
    obtain ⟨c, hc, rfl⟩ := List.mem_map.1 hp
    rw [payload8_mk8 _ _ _ (hall c (List.dropLast_subset _ hc)).2, hdl c hc]
  · rw [List.flatMap_map, ← hcat]
    apply flatMap_congr_mem
    intro c hc
    exact payload8_mk8 _ _ _ (hall c hc).2

theorem message8_kind (pl : List Byte) :
    GenuineId (message8 pl).manufacturerID ∨ (message8 pl).manufacturerID = 0 := by
  have three : ∀ n : Nat, n / 256 < 128 → n % 256 < 128 → GenuineId (BitVec.ofNat 32 n) ∨ BitVec.ofNat 32 n = 0 := by
    intro n h1 h2
    by_cases h0 : n = 0
    · right; rw [h0]; rfl
    · left; right
      unfold ThreeByteId
      rw [BitVec.toNat_ofNat]
      omega
  match pl with
  | [] => exact Or.inr rfl
  | [a] =>
    have := a.isLt
    simp only [message8]
    split
    · exact three _ (by omega) (by omega)
    · exact Or.inr rfl
  | a :: b :: d =>
    have := a.isLt
    have := b.isLt
    simp only [message8]
    split
    · exact three _ (by omega) (by omega)
    · split
      · by_cases h0 : b.toNat % 128 = 0
        · right; rw [h0]; rfl
        · left; left
          unfold OneByteId
          rw [BitVec.toNat_ofNat]
          omega
      · exact Or.inr rfl

/-- C20, exactly which messages survive: a message sent with `send_sysex8` is received as exactly that message, with its
stream id, if and only if its manufacturer id is genuine or zero and it has none of the lengths `send_sysex8` frames
wrongly. -/
theorem C20_exactly (s : Sysex) (st g : Byte) (hg : g < 16) :
    ∃ ps c out, sendSysex8 s st g = .ok ps ∧ ({} : Collector8).feedAll ps = .ok (c, out) ∧
      (out = [(s, st)] ↔ (GenuineId s.manufacturerID ∨ s.manufacturerID = 0) ∧ ¬ BadLength8 s) := by
  obtain ⟨ps, hps, h1, _⟩ := C19_any_id s st g hg
  obtain ⟨c, hc⟩ := C24_collector_decodes ps
  have received : GenuineId s.manufacturerID ∨ s.manufacturerID = 0 →
      (decode8 (items8 ps)).map (fun m => (message8 m.1, m.2)) = received8 s st := by
    intro hid
    have hs : [(s, st, g)].mapM (fun m : Sysex × Byte × Byte => sendSysex8 m.1 m.2.1 m.2.2) = .ok [ps] := by
      rw [List.mapM_cons, hps]; rfl
    obtain ⟨c1, b1, c2, e1, e2⟩ := C20_received [] [(s, st, g)] (by
      intro m hm; rw [List.mem_singleton] at hm; subst hm; exact ⟨hid, hg⟩) [ps] hs ps
      (by rw [List.filter_eq_self.2 (fun p hp => decide_eq_true (h1 p hp).1)]; simp)
    have : c1 = {} := by
      have : ({} : Collector8).feedAll [] = .ok ({}, []) := rfl
      rw [this] at e1
      exact (Prod.mk.inj (Except.ok.inj e1)).1.symm
    rw [this, hc] at e2
    have := (Prod.mk.inj (Except.ok.inj e2)).2
    simpa using this
  have hiff := C20_round_trip_iff [(s, st, g)]
  simp only [List.flatMap_cons, List.flatMap_nil, List.append_nil, List.map_cons, List.map_nil, List.mem_singleton,
    forall_eq] at hiff
  refine ⟨ps, c, _, hps, hc, ?_, ?_⟩
  · intro ho
    have hid : GenuineId s.manufacturerID ∨ s.manufacturerID = 0 := by
      have hm : (s, st) ∈ (decode8 (items8 ps)).map (fun m => (message8 m.1, m.2)) := by rw [ho]; simp
      obtain ⟨x, _, hx⟩ := List.mem_map.1 hm
      rw [← (Prod.mk.inj hx).1]
      exact message8_kind x.1
    rw [received hid] at ho
    exact ⟨hid, hiff.1 ho⟩
  · rintro ⟨hid, hb⟩
    rw [received hid]
    exact hiff.2 hb

/-- C20: two examples that survive, and one each for the reasons not to. -/
example : ((GenuineId 0x2109 ∨ (0x2109 : Word) = 0) ∧ ¬ BadLength8 ⟨0x2109, List.replicate 12 0xFF⟩) ∧
    ¬ BadLength8 ⟨0, List.replicate 14 0xFF⟩ ∧ BadLength8 ⟨0x2109, List.replicate 11 0xFF⟩ ∧
    ¬ (GenuineId 0x800000 ∨ (0x800000 : Word) = 0) := by decide

example : (GenuineId 0x7E0000 ∧ ∀ b ∈ ([1, 2, 0x7F] : List Byte), b < 0x80) ∧ ¬ GenuineId 0x800000 := by decide

end Midi
