import Verif.Spec.Interleave
import Verif.Props.Collector7
import Verif.Props.Collector8
import Verif.Lemmas.Messages
import Verif.Props.Damage

/-!
# Property C82: messages sent at the same time on different groups and streams
-/

namespace Midi
open Spec

/-! ## Helper lemmas -/

theorem Spec.Interleaved.filter {α : Type} {ls : List (List α)} {w : List α} (h : Interleaved ls w) (P : α → Bool) :
    Interleaved (ls.map (List.filter P)) (w.filter P) := by
  induction h with
  | nothing ls h =>
    refine Interleaved.nothing _ fun l hl => ?_
    obtain ⟨l', hl', rfl⟩ := List.mem_map.1 hl
    rw [h l' hl']; rfl
  | next ls i a l w hi _ ih =>
    rw [List.map_set] at ih
    by_cases hp : P a = true
    · rw [List.filter_cons_of_pos hp]
      refine Interleaved.next _ i a (l.filter P) _ ?_ ih
      rw [List.getElem?_map, hi, Option.map_some, List.filter_cons_of_pos hp]
    · rw [List.filter_cons_of_neg hp]
      have : (ls.map (List.filter P)).set i (l.filter P) = ls.map (List.filter P) := by
        obtain ⟨hlt, hget⟩ := List.getElem?_eq_some_iff.1 hi
        apply List.ext_getElem? fun j => ?_
        rw [List.getElem?_set]
        split
        · rename_i e
          subst e
          rw [List.getElem?_map, hi, Option.map_some, List.filter_cons_of_neg hp]
          simp [hlt]
        · rfl
      rw [this] at ih
      exact ih

theorem Spec.Interleaved.only {α : Type} {ls : List (List α)} {w : List α} (h : Interleaved ls w) (i : Nat) (l : List α)
    (hi : ls[i]? = some l) (ho : ∀ j m, j ≠ i → ls[j]? = some m → m = []) : w = l := by
  induction h generalizing l with
  | nothing ls h => exact (h l (List.mem_of_getElem? hi)).symm
  | next ls j a l' w hj _ ih =>
    by_cases hji : j = i
    · subst hji
      obtain rfl : a :: l' = l := Option.some.inj (hj.symm.trans hi)
      obtain ⟨hlt, -⟩ := List.getElem?_eq_some_iff.1 hj
      rw [ih l' (by rw [List.getElem?_set_self hlt]) fun k m hk hm => ?_]
      rw [List.getElem?_set_ne (fun e => hk e.symm)] at hm
      exact ho k m hk hm
    · exact absurd (ho j _ hji hj) (by simp)

/-- The packets of the senders interleaved with others: those a predicate selects, if it selects what one sender sends. -/
theorem select_sender {α β : Type} (senders : List β) (packets : β → List α) (other w : List α)
    (h : Interleaved (senders.map packets ++ [other]) w) (P : α → Bool) (i : Nat) (s : β) (hi : senders[i]? = some s)
    (hs : ∀ p ∈ packets s, P p = true) (ho : ∀ j t, j ≠ i → senders[j]? = some t → ∀ p ∈ packets t, P p = false)
    (hother : ∀ p ∈ other, P p = false) : w.filter P = packets s := by
  have h' := h.filter P
  have hlt : i < senders.length := (List.getElem?_eq_some_iff.1 hi).1
  have hsel : (packets s).filter P = packets s := List.filter_eq_self.2 hs
  rw [← hsel]
  refine h'.only i _ ?_ fun j m hj hm => ?_
  · rw [List.getElem?_map, List.getElem?_append_left (by simpa using hlt), List.getElem?_map, hi]
    rfl
  · rw [List.getElem?_map] at hm
    obtain ⟨l, hl, rfl⟩ := Option.map_eq_some_iff.1 hm
    rw [List.filter_eq_nil_iff]
    intro p hp
    by_cases hjl : j < senders.length
    · rw [List.getElem?_append_left (by simpa using hjl), List.getElem?_map] at hl
      obtain ⟨t, ht, rfl⟩ := Option.map_eq_some_iff.1 hl
      simp [ho j t hj ht p hp]
    · rw [List.getElem?_append_right (by simpa using hjl)] at hl
      have : l ∈ [other] := List.mem_of_getElem? hl
      rw [List.mem_singleton] at this
      subst this
      simp [hother p hp]

theorem group_of_groupOf (p : Packet) (g : Byte) : p.group = g ↔ groupOf p = g.toNat := by
  have h : p.group.toNat = groupOf p := by
    rw [Packet.group_eq]
    unfold groupOf
    rw [BitVec.toNat_and, show (0x0F : Byte).toNat = 2 ^ 4 - 1 from rfl, Nat.and_two_pow_sub_one_eq_mod]
  rw [← h]
  exact ⟨fun e => by rw [e], fun e => BitVec.eq_of_toNat_eq e⟩

theorem mapM_mem_ok {α β : Type} {f : α → Except Fault β} {l : List α} {r : List β} (h : l.mapM f = .ok r) {b : β} (hb : b ∈ r) :
    ∃ a ∈ l, f a = .ok b := by
  induction l generalizing r with
  | nil =>
    obtain rfl : [] = r := Except.ok.inj h
    cases hb
  | cons a l ih =>
    obtain ⟨x, xs, h1, h2, rfl⟩ := mapM_cons_ok h
    rcases List.mem_cons.1 hb with rfl | hb
    · exact ⟨a, by simp, h1⟩
    · obtain ⟨a', ha, e⟩ := ih h2 hb
      exact ⟨a', by simp [ha], e⟩

/-! ## C82 -/

/-- C82: senders on different groups send 7 bit sysex messages at the same time, mixed with any packets that are not 7 bit sysex.
A collector that is fed the packets of one of the groups delivers exactly the messages sent there, in order. -/
theorem C82_groups (senders : List Sender) (hdist : senders.Pairwise fun s t => s.group ≠ t.group)
    (hok : ∀ s ∈ senders, ∀ m ∈ s.messages, Sendable7 (m, s.group)) (packets : Sender → List Packet)
    (hsent : ∀ s ∈ senders, ∃ ps, s.messages.mapM (fun m => sendSysex7 m s.group) = .ok ps ∧ packets s = ps.flatten)
    (other : List Packet) (hother : ∀ p ∈ other, ¬ IsSysex7 p) (w : List Packet)
    (hw : Interleaved (senders.map packets ++ [other]) w) (s : Sender) (hs : s ∈ senders) :
    ∃ c, ({} : Collector7).feedAll (w.filter fun p => p.group == s.group) = .ok (c, s.messages) := by
  have hpk : ∀ t ∈ senders, ∀ p ∈ packets t, IsSysex7 p ∧ p.group = t.group := by
    intro t ht p hp
    obtain ⟨ps, h1, h2⟩ := hsent t ht
    rw [h2, List.mem_flatten] at hp
    obtain ⟨l, hl, hp⟩ := hp
    obtain ⟨m, hm, e⟩ := mapM_mem_ok h1 hl
    obtain ⟨qs, e1, e2, -⟩ := C17_send_sysex7 m t.group (hok t ht m hm).2.2 (hok t ht m hm).1
    rw [e] at e1
    obtain rfl := Except.ok.inj e1
    exact ⟨(e2 p hp).1, (group_of_groupOf p _).2 (e2 p hp).2.1⟩
  obtain ⟨i, hlt, hi⟩ := List.getElem_of_mem hs
  have hi' : senders[i]? = some s := List.getElem?_eq_some_iff.2 ⟨hlt, hi⟩
  have hsel := select_sender senders packets other w hw (fun p => decide (IsSysex7 p) && p.group == s.group) i s hi'
    (fun p hp => by simp [hpk s hs p hp])
    (fun j t hj ht p hp => by
      obtain ⟨hjl, hjt⟩ := List.getElem?_eq_some_iff.1 ht
      have hne : t.group ≠ s.group := by
        rw [List.pairwise_iff_getElem] at hdist
        rcases Nat.lt_or_gt_of_ne hj with h | h
        · have := hdist j i hjl hlt h
          rw [hjt, hi] at this; exact this
        · have := hdist i j hlt hjl h
          rw [hjt, hi] at this; exact this.symm
      have := (hpk t (List.mem_of_getElem? ht) p hp).2
      simp [this, hne])
    (fun p hp => by simp [hother p hp])
  obtain ⟨ps, h1, h2⟩ := hsent s hs
  have hms : (s.messages.map fun m => (m, s.group)).mapM (fun m => sendSysex7 m.1 m.2) = .ok ps := by
    rw [List.mapM_map]; exact h1
  obtain ⟨c, before, c', e1, e2⟩ := C18_sysex7_round_trip [] (s.messages.map fun m => (m, s.group))
    (by intro m hm; obtain ⟨m', hm', rfl⟩ := List.mem_map.1 hm; exact hok s hs m' hm') ps hms
    (w.filter fun p => p.group == s.group) (by rw [List.filter_filter, hsel, h2])
  obtain ⟨rfl, -⟩ := Prod.mk.inj (Except.ok.inj e1)
  refine ⟨c', ?_⟩
  rw [e2, List.map_map]
  simp [Function.comp_def]

/-- Two senders on groups 0 and 1, each with a message of two packets. -/
def twoSenders : List Sender :=
  [{ group := 0, messages := [⟨0x7E0000, [1, 2, 3, 4, 5, 6]⟩] }, { group := 1, messages := [⟨0x410000, [11, 12, 13, 14, 15, 16]⟩] }]

/-- Their packets. -/
def twoSendersPackets (s : Sender) : List Packet :=
  if s.group = 0 then [⟨0x30167E01, 0x02030405, 0, 0⟩, ⟨0x30310600, 0, 0, 0⟩]
  else [⟨0x3116410B, 0x0C0D0E0F, 0, 0⟩, ⟨0x31311000, 0, 0, 0⟩]

/-- C82: the hypotheses of `C82_groups` hold for them, their packets alternating, with a note on message in between. -/
example : (twoSenders.Pairwise fun s t => s.group ≠ t.group) ∧
    (∀ s ∈ twoSenders, ∀ m ∈ s.messages, Sendable7 (m, s.group)) ∧
    (∀ s ∈ twoSenders, ∃ ps, s.messages.mapM (fun m => sendSysex7 m s.group) = .ok ps ∧ twoSendersPackets s = ps.flatten) ∧
    Interleaved (twoSenders.map twoSendersPackets ++ [[⟨0x20903C40, 0, 0, 0⟩]])
      [⟨0x30167E01, 0x02030405, 0, 0⟩, ⟨0x3116410B, 0x0C0D0E0F, 0, 0⟩, ⟨0x20903C40, 0, 0, 0⟩, ⟨0x30310600, 0, 0, 0⟩,
        ⟨0x31311000, 0, 0, 0⟩] := by
  refine ⟨by decide, by decide, ?_, ?_⟩
  · intro s hs
    simp only [twoSenders, List.mem_cons, List.not_mem_nil, or_false] at hs
    rcases hs with rfl | rfl
    · exact ⟨_, rfl, rfl⟩
    · exact ⟨_, rfl, rfl⟩
  · refine .next _ 0 _ _ _ rfl (.next _ 1 _ _ _ rfl (.next _ 2 _ _ _ rfl (.next _ 0 _ _ _ rfl (.next _ 1 _ _ _ rfl
      (.nothing _ ?_)))))
    decide

/-- C82: a single collector for both groups does not deliver either message. -/
theorem C82_one_collector : ∃ c, ({} : Collector7).feedAll [⟨0x30167E01, 0x02030405, 0, 0⟩, ⟨0x3116410B, 0x0C0D0E0F, 0, 0⟩,
    ⟨0x20903C40, 0, 0, 0⟩, ⟨0x30310600, 0, 0, 0⟩, ⟨0x31311000, 0, 0, 0⟩] =
    .ok (c, [⟨0x410000, [11, 12, 13, 14, 15, 6]⟩]) := ⟨_, rfl⟩

/-- C82: senders that differ in their group or stream id send 8 bit sysex messages at the same time, mixed with any packets that are
not 8 bit sysex. A collector that is fed the packets of one group and stream delivers exactly the messages sent there, in order. Messages
of the lengths for which `send_sysex8` is wrong (C19) are excluded. -/
theorem C82_streams (senders : List Sender) (hdist : senders.Pairwise fun s t => s.group ≠ t.group ∨ s.stream ≠ t.stream)
    (hok : ∀ s ∈ senders, ∀ m ∈ s.messages, Sendable8 (m, s.stream, s.group)) (packets : Sender → List Packet)
    (hsent : ∀ s ∈ senders, ∃ ps, s.messages.mapM (fun m => sendSysex8 m s.stream s.group) = .ok ps ∧ packets s = ps.flatten)
    (other : List Packet) (hother : ∀ p ∈ other, ¬ IsSysex8 p) (w : List Packet)
    (hw : Interleaved (senders.map packets ++ [other]) w) (s : Sender) (hs : s ∈ senders) :
    ∃ c, ({} : Collector8).feedAll (w.filter fun p => p.group == s.group && stream8 p == s.stream) =
      .ok (c, s.messages.map fun m => (m, s.stream)) := by
  have hpk : ∀ t ∈ senders, ∀ p ∈ packets t, IsSysex8 p ∧ p.group = t.group ∧ stream8 p = t.stream := by
    intro t ht p hp
    obtain ⟨ps, h1, h2⟩ := hsent t ht
    rw [h2, List.mem_flatten] at hp
    obtain ⟨l, hl, hp⟩ := hp
    obtain ⟨m, hm, e⟩ := mapM_mem_ok h1 hl
    obtain ⟨qs, e1, e2, -⟩ := C19_send_sysex8_payload m t.stream t.group (hok t ht m hm).2.2 (hok t ht m hm).1
    rw [e] at e1
    obtain rfl := Except.ok.inj e1
    exact ⟨(e2 p hp).1, (group_of_groupOf p _).2 (e2 p hp).2.1, (e2 p hp).2.2.1⟩
  obtain ⟨i, hlt, hi⟩ := List.getElem_of_mem hs
  have hi' : senders[i]? = some s := List.getElem?_eq_some_iff.2 ⟨hlt, hi⟩
  have hsel := select_sender senders packets other w hw
    (fun p => decide (IsSysex8 p) && (p.group == s.group && stream8 p == s.stream)) i s hi'
    (fun p hp => by simp [hpk s hs p hp])
    (fun j t hj ht p hp => by
      obtain ⟨hjl, hjt⟩ := List.getElem?_eq_some_iff.1 ht
      have hne : t.group ≠ s.group ∨ t.stream ≠ s.stream := by
        rw [List.pairwise_iff_getElem] at hdist
        rcases Nat.lt_or_gt_of_ne hj with h | h
        · have := hdist j i hjl hlt h
          rw [hjt, hi] at this; exact this
        · have := hdist i j hlt hjl h
          rw [hjt, hi] at this; exact this.imp Ne.symm Ne.symm
      have := (hpk t (List.mem_of_getElem? ht) p hp).2
      rcases hne with h | h <;> simp [this, h])
    (fun p hp => by simp [hother p hp])
  obtain ⟨ps, h1, h2⟩ := hsent s hs
  have hms : (s.messages.map fun m => (m, s.stream, s.group)).mapM (fun m => sendSysex8 m.1 m.2.1 m.2.2) = .ok ps := by
    rw [List.mapM_map]; exact h1
  obtain ⟨c, before, c', e1, e2⟩ := C20_sysex8_round_trip_partial [] (s.messages.map fun m => (m, s.stream, s.group))
    (by intro m hm; obtain ⟨m', hm', rfl⟩ := List.mem_map.1 hm; exact hok s hs m' hm') ps hms
    (w.filter fun p => p.group == s.group && stream8 p == s.stream) (by rw [List.filter_filter, hsel, h2])
  obtain ⟨rfl, -⟩ := Prod.mk.inj (Except.ok.inj e1)
  refine ⟨c', ?_⟩
  rw [e2, List.map_map]
  simp [Function.comp_def]

/-- C82: two senders on the same group with different stream ids, their packets alternating. -/
example : ∃ ps qs : List Packet, sendSysex8 ⟨0x7E0000, [1, 2, 3, 4, 5, 6, 7, 8, 9, 10, 11, 12, 13]⟩ 1 0 = .ok ps ∧
    sendSysex8 ⟨0x410000, [21, 22, 23, 24, 25, 26, 27, 28, 29, 30, 31, 32, 33]⟩ 2 0 = .ok qs ∧ ps.length = 2 ∧ qs.length = 2 ∧
    Sendable8 (⟨0x7E0000, [1, 2, 3, 4, 5, 6, 7, 8, 9, 10, 11, 12, 13]⟩, 1, 0) ∧
    Sendable8 (⟨0x410000, [21, 22, 23, 24, 25, 26, 27, 28, 29, 30, 31, 32, 33]⟩, 2, 0) ∧
    Interleaved [ps, qs, []] [ps[0]!, qs[0]!, qs[1]!, ps[1]!] := by
  refine ⟨_, _, rfl, rfl, rfl, rfl, by decide, by decide, ?_⟩
  refine .next _ 0 _ _ _ rfl (.next _ 1 _ _ _ rfl (.next _ 1 _ _ _ rfl (.next _ 0 _ _ _ rfl (.nothing _ ?_))))
  decide

end Midi
