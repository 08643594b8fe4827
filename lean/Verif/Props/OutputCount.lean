import Verif.Props.SysexAnyId
import Verif.Props.Stream
import Verif.Props.Collector7
import Verif.Props.Collector8
import Verif.Props.ByteStreamSysex
import Verif.Props.ReentrantParser
import Verif.Lemmas.ExceptionsParser

/-!
# C79: how much output there is
-/

namespace Midi
open Spec

/-- Pieces of at most `k` elements, none of them empty, all but the last one full: their number. -/
theorem count_full {α β : Type} (k : Nat) (hk : 0 < k) (f : α → List β) : ∀ ps : List α,
    (∀ p ∈ ps, f p ≠ [] ∧ (f p).length ≤ k) → (∀ p ∈ ps.dropLast, (f p).length = k) →
    ps.length = ((ps.flatMap f).length + (k - 1)) / k := by
  intro ps
  induction ps with
  | nil => intro _ _; simp [Nat.div_eq_of_lt (show k - 1 < k by omega)]
  | cons a t ih =>
    intro h1 h2
    have ha := h1 a (by simp)
    have hp : 0 < (f a).length := List.length_pos_iff.2 ha.1
    cases t with
    | nil =>
      simp
      symm
      apply Nat.div_eq_of_lt_le <;> omega
    | cons b t =>
      have hf : (f a).length = k := h2 a (by simp)
      have := ih (fun p hp => h1 p (List.mem_cons_of_mem _ hp)) (fun p hp => h2 p (by simp [hp]))
      rw [List.flatMap_cons, List.length_append, hf, List.length_cons, this, Nat.add_assoc, Nat.add_comm k, Nat.add_div_right _ hk]

/-- C79: `send_sysex7` sends as many packets as are needed for the id bytes and the data: six bytes go into a packet. -/
theorem C79_send_sysex7 (s : Sysex) (g : Byte) (hg : g < 16) :
    ∃ ps, sendSysex7 s g = .ok ps ∧
      ps.length = ((if s.manufacturerID.toNat % 65536 = 0 then 1 else 3) + s.data.length + 5) / 6 := by
  obtain ⟨ps, e, h1, -, h3, h4⟩ := C17_any_id s g hg
  refine ⟨ps, e, ?_⟩
  rw [count_full 6 (by omega) payload7 ps (fun p hp => ⟨(h1 p hp).2.2, ?_⟩) h3, h4, List.length_append, sentId7_length, List.length_map]
  · unfold payload7; rw [List.length_map, List.length_range]; exact (h1 p hp).1.2.2

example := C79_send_sysex7 ⟨0x7E0000, List.replicate 11 5⟩ 3 (by decide)

/-- C79: `send_sysex8` likewise: 13 bytes go into a packet, and every id takes two of them. -/
theorem C79_send_sysex8 (s : Sysex) (st g : Byte) (hg : g < 16) :
    ∃ ps, sendSysex8 s st g = .ok ps ∧ ps.length = (2 + s.data.length + 12) / 13 := by
  obtain ⟨ps, e, h1, -, h3, h4⟩ := C19_any_id s st g hg
  refine ⟨ps, e, ?_⟩
  have hi : (sentId8 s.manufacturerID).length = 2 := by unfold sentId8; split <;> rfl
  rw [count_full 13 (by omega) payload8 ps (fun p hp => ⟨(h1 p hp).2.2.2, ?_⟩) h3, h4, List.length_append, hi]
  · unfold payload8; rw [List.length_map, List.length_range]; have := (h1 p hp).1.2.2.2; omega

example := C79_send_sysex8 ⟨0x002109, List.replicate 12 5⟩ 1 3 (by decide)

theorem nameChunks_count {n : Nat} (hn : 0 < n) (name : List Byte) : (nameChunks n name).length = max 1 ((name.length + (n - 1)) / n) := by
  unfold nameChunks
  by_cases h : name.length ≤ n
  · rw [if_pos h]
    have : (name.length + (n - 1)) / n < 2 := by rw [Nat.div_lt_iff_lt_mul hn]; omega
    rw [List.length_singleton]; omega
  · rw [if_neg h]
    obtain ⟨⟨k, h1⟩, h2, h3, h4⟩ := chunks_framed (N := n) id _ .start [] name rfl (by simpa using hn) (by simp; omega)
    have := count_full n hn (·.2) _ (fun c hc => ⟨List.length_pos_iff.1 (h4 c hc).1, (h4 c hc).2⟩) h3
    rw [h2] at this
    have hp : 0 < (chunks n id .start [] name).length := by
      have := congrArg List.length h1; simp at this; omega
    simp at this
    omega

/-- C79: `send_endpoint_name` sends as many packets as are needed, 14 characters in each, and one for the empty name. -/
theorem C79_send_endpoint_name (name : List Byte) :
    ∃ ps, sendEndpointName name = .ok ps ∧ ps.length = max 1 ((name.length + 13) / 14) := by
  obtain ⟨_, _, _, f4⟩ := nameChunks_facts (show 0 < 14 by omega) name
  refine ⟨(nameChunks 14 name).map fun c => packetOf ([0xF0 + 4 * c.1.code, 0x03] ++ c.2), ?_, ?_⟩
  · unfold sendEndpointName
    rw [sendName_eq _ (by omega)]
    exact mapM_ok fun c hc => makeEndpointName_eq c.1 c.2 (f4 c hc)
  · rw [List.length_map, nameChunks_count (by omega)]

/-- C79: `send_function_block_name` likewise, 13 characters in each packet. -/
theorem C79_send_function_block_name (block : Byte) (name : List Byte) :
    ∃ ps, sendFunctionBlockName block name = .ok ps ∧ ps.length = max 1 ((name.length + 12) / 13) := by
  obtain ⟨_, _, _, f4⟩ := nameChunks_facts (show 0 < 13 by omega) name
  refine ⟨(nameChunks 13 name).map fun c => packetOf ([0xF0 + 4 * c.1.code, 0x12, block] ++ c.2), ?_, ?_⟩
  · unfold sendFunctionBlockName
    rw [sendName_eq (fun f n => makeFunctionBlockName f block n) (by omega)]
    exact mapM_ok fun c hc => makeFunctionBlockName_eq c.1 block c.2 (f4 c hc)
  · rw [List.length_map, nameChunks_count (by omega)]

/-! ## The byte stream parser -/

/-- A byte makes at most one callback, in any state of the parser. -/
theorem feed_at_most_one (p p' : Parser) (b : Byte) (es : List Event) (h : p.feed b = .ok (p', es)) : es.length ≤ 1 := by
  rw [← feedR_leave] at h
  cases shape_feed p b {} rfl with
  | silent x hf _ =>
    rw [hf] at h
    cases x with
    | error _ => cases h
    | ok q => cases h; simp
  | call d e post hf _ =>
    rw [hf] at h
    simp only [leave, ok_bind] at h
    cases hx : post d with
    | error _ => rw [hx] at h; cases h
    | ok q => rw [hx] at h; cases h; simp

/-- C79: `send_product_instance_id` sends as many packets as are needed too, for every id of at most 16 characters. -/
theorem C79_send_product_instance_id (id : List Byte) (h : id.length ≤ 16) :
    ∃ ps, sendProductInstanceId id = .ok ps ∧ ps.length = max 1 ((id.length + 13) / 14) := by
  unfold sendProductInstanceId
  rw [decide_eq_true h]
  simp only [assert_ok, ok_bind]
  by_cases h14 : id.length ≤ 14
  · rw [if_pos h14, makeProductInstanceId_eq _ (by decide) _ h14, ok_bind]
    exact ⟨_, rfl, by simp; omega⟩
  · rw [if_neg h14, makeProductInstanceId_eq _ (by decide) _ (by simp), ok_bind, makeProductInstanceId_eq _ (by decide) _ (by simp),
      ok_bind]
    exact ⟨_, rfl, by simp; omega⟩

/-- C79: ids of 14 and 15 characters. -/
example : (∃ p, sendProductInstanceId (List.replicate 14 0x41) = .ok [p]) ∧
    ∃ p q, sendProductInstanceId (List.replicate 15 0x41) = .ok [p, q] := ⟨⟨_, rfl⟩, ⟨_, _, rfl⟩⟩

/-- C79: a byte stream parser, in whatever state, makes at most one callback for each byte it is fed. -/
theorem C79_parser (bs : List Byte) : ∀ (p p' : Parser) (es : List Event), p.feedAll bs = .ok (p', es) → es.length ≤ bs.length := by
  induction bs with
  | nil => intro p p' es h; cases h; simp
  | cons b bs ih =>
    intro p p' es h
    rw [Parser.feedAll] at h
    cases h1 : p.feed b with
    | error _ => rw [h1] at h; cases h
    | ok x =>
      obtain ⟨q, e⟩ := x
      rw [h1] at h
      simp only [ok_bind] at h
      cases h2 : q.feedAll bs with
      | error _ => rw [h2] at h; cases h
      | ok y =>
        obtain ⟨r, es'⟩ := y
        rw [h2] at h
        cases h
        have := feed_at_most_one p q b e h1
        have := ih q r es' h2
        simp; omega

/-- C79: for a sysex message with `n` data bytes, `n > 0`, a parser without sysex callback emits exactly `n / 6 + 1` sysex packets:
if `n` is a multiple of six the last one has no data. -/
theorem C79_parser_sysex (p : Parser) (hp : Reached p) (hm : p.hasSysexCallback = false) (hon : p.invokeCallbacks = true)
    (D : List Byte) (hD : ∀ b ∈ D, b < 0x80) :
    ∃ p' es, p.feedAll (0xF0 :: (D ++ [0xF7])) = .ok (p', es) ∧ es.length = if D = [] then 0 else D.length / 6 + 1 := by
  obtain ⟨st, r, hg⟩ := reached_rel hp
  obtain ⟨p', e, r'⟩ := feedAll_rel (0xF0 :: (D ++ [0xF7])) r
  refine ⟨p', _, e, ?_⟩
  rw [sysex_packets _ hm hon st D hD]
  split
  · rfl
  · rw [List.length_map]; exact (parserChunks_facts D).2.2.2.2

example := C79_parser_sysex (Parser.new 1 false true) ⟨1, false, true, [], [], (by decide), by simp [ValidGroups], rfl⟩ rfl rfl
  [1, 2, 3, 4, 5, 6, 7] (by decide)

/-! ## The collectors -/

theorem feed7_count (c c' : Collector7) (p : Packet) (ms : List Sysex) (h : c.feed p = .ok (c', ms)) :
    ms.length ≤ if IsSysex7 p ∧ (formatCode p = 0 ∨ formatCode p = 3) then 1 else 0 := by
  have pay : ∀ (c : Collector7), isSysex7Packet p = true → c.feedPayload p = .ok (c', ms) →
      ms.length ≤ if IsSysex7 p ∧ (formatCode p = 0 ∨ formatCode p = 3) then 1 else 0 := by
    intro c hb h
    have hn : sysex7PayloadSize p ≤ 6 := (C15_view_payload p hb).1
    revert h
    unfold Collector7.feedPayload
    dsimp only
    generalize ensureCapacity c.capacity c.maxSize c.sysex.data.length (sysex7PayloadSize p) = ec
    obtain ⟨cap, acc⟩ := ec
    dsimp only
    cases acc
    · intro h; cases h; simp
    · obtain ⟨d, hd, hcb⟩ := collectLoop7_ok p (sysex7PayloadSize p) 0 { c with capacity := cap } (by omega)
      rw [hd]
      simp only [Bool.not_true, Bool.false_eq_true, if_false, ok_bind]
      split
      · rename_i hs
        intro h
        cases h
        have hc : formatCode p = 0 ∨ formatCode p = 3 := by
          have : ∀ b : Byte, b &&& 0xF0 = 0x00 ∨ b &&& 0xF0 = 0x30 → b.toNat / 16 = 0 ∨ b.toNat / 16 = 3 := by decide +kernel
          exact this _ (by rw [← Packet.status_eq]; exact hs)
        have hi : (if IsSysex7 p ∧ (formatCode p = 0 ∨ formatCode p = 3) then 1 else 0) = 1 :=
          if_pos ⟨(C15_is_sysex7_packet_iff p).1 hb, hc⟩
        rw [hi]
        cases d.hasCallback <;> simp
      · intro h; cases h; simp
  unfold Collector7.feed at h
  by_cases hb : isSysex7Packet p = true
  · simp only [hb, Bool.not_true, Bool.false_eq_true, if_false, sysex7View] at h
    rw [assert_ok rfl] at h
    simp only [ok_bind, pure_eq_ok] at h
    split at h
    · split at h
      · exact pay _ hb h
      · exact pay _ hb h
    · split at h
      · cases h; simp
      · exact pay _ hb h
  · simp only [hb, Bool.not_false, if_true] at h
    cases h; simp

theorem feed8_count (c c' : Collector8) (p : Packet) (ms : List (Sysex × Byte)) (h : c.feed p = .ok (c', ms)) :
    ms.length ≤ if IsSysex8 p ∧ (formatCode p = 0 ∨ formatCode p = 3) then 1 else 0 := by
  have pay : ∀ (c : Collector8), isSysex8Packet p = true → c.feedPayload p = .ok (c', ms) →
      ms.length ≤ if IsSysex8 p ∧ (formatCode p = 0 ∨ formatCode p = 3) then 1 else 0 := by
    intro c hb h
    have hn : sysex8PayloadSize p ≤ 13 := (C16_view_payload p hb).1
    revert h
    unfold Collector8.feedPayload
    dsimp only
    generalize ensureCapacity c.capacity c.maxSize c.sysex.data.length (sysex8PayloadSize p) = ec
    obtain ⟨cap, acc⟩ := ec
    dsimp only
    cases acc
    · intro h; cases h; simp
    · obtain ⟨d, hd, hcb⟩ := collectLoop8_ok p (sysex8PayloadSize p) 0 { c with capacity := cap } (by omega)
      rw [hd]
      simp only [Bool.not_true, Bool.false_eq_true, if_false, ok_bind]
      split
      · rename_i hs
        intro h
        cases h
        have h8 := (C16_is_sysex8_packet_iff p).1 hb
        have hc : formatCode p = 0 ∨ formatCode p = 3 := by
          have : ∀ b : Byte, b.toNat / 16 ≤ 3 → Format.ofCode ((b >>> 4) &&& 3) = .complete ∨ Format.ofCode ((b >>> 4) &&& 3) = .fin →
            b.toNat / 16 = 0 ∨ b.toNat / 16 = 3 := by decide +kernel
          exact this _ h8.2.1 (by rw [← Packet.status_eq]; exact hs)
        have hi : (if IsSysex8 p ∧ (formatCode p = 0 ∨ formatCode p = 3) then 1 else 0) = 1 := if_pos ⟨h8, hc⟩
        rw [hi]
        cases d.hasCallback <;> simp
      · intro h; cases h; simp
  unfold Collector8.feed at h
  by_cases hb : isSysex8Packet p = true
  · simp only [hb, Bool.not_true, Bool.false_eq_true, if_false, sysex8View] at h
    rw [assert_ok rfl] at h
    simp only [(C16_view_payload p hb).2.2.1, ok_bind, pure_eq_ok] at h
    split at h
    · exact pay _ hb h
    · split at h
      · cases h; simp
      · split at h
        · cases h; simp
        · exact pay _ hb h
  · simp only [hb, Bool.not_false, if_true] at h
    cases h; simp

/-- C79: a sysex7 collector, in whatever state, with or without size limit, delivers at most one message for each complete or end
packet it is fed, and none for any other packet. -/
theorem C79_collector7 (ps : List Packet) : ∀ (c c' : Collector7) (ms : List Sysex), c.feedAll ps = .ok (c', ms) →
    ms.length ≤ ps.countP fun p => decide (IsSysex7 p ∧ (formatCode p = 0 ∨ formatCode p = 3)) := by
  induction ps with
  | nil => intro c c' ms h; cases h; simp
  | cons p ps ih =>
    intro c c' ms h
    rw [Collector7.feedAll] at h
    cases h1 : c.feed p with
    | error _ => rw [h1] at h; cases h
    | ok x =>
      obtain ⟨d, out⟩ := x
      rw [h1] at h
      simp only [ok_bind] at h
      cases h2 : d.feedAll ps with
      | error _ => rw [h2] at h; cases h
      | ok y =>
        obtain ⟨d', out'⟩ := y
        rw [h2] at h
        cases h
        have h3 := feed7_count c d p out h1
        have h4 := ih d d' out' h2
        rw [List.countP_cons, List.length_append]
        simp only [decide_eq_true_eq]
        omega

/-- C79: a sysex8 collector likewise. -/
theorem C79_collector8 (ps : List Packet) : ∀ (c c' : Collector8) (ms : List (Sysex × Byte)), c.feedAll ps = .ok (c', ms) →
    ms.length ≤ ps.countP fun p => decide (IsSysex8 p ∧ (formatCode p = 0 ∨ formatCode p = 3)) := by
  induction ps with
  | nil => intro c c' ms h; cases h; simp
  | cons p ps ih =>
    intro c c' ms h
    rw [Collector8.feedAll] at h
    cases h1 : c.feed p with
    | error _ => rw [h1] at h; cases h
    | ok x =>
      obtain ⟨d, out⟩ := x
      rw [h1] at h
      simp only [ok_bind] at h
      cases h2 : d.feedAll ps with
      | error _ => rw [h2] at h; cases h
      | ok y =>
        obtain ⟨d', out'⟩ := y
        rw [h2] at h
        cases h
        have h3 := feed8_count c d p out h1
        have h4 := ih d d' out' h2
        rw [List.countP_cons, List.length_append]
        simp only [decide_eq_true_eq]
        omega

/-! The hypotheses are met, and the numbers are exact. -/

example : ∃ ps, sendSysex7 ⟨0x7E0000, List.replicate 11 5⟩ 3 = .ok ps ∧ ps.length = 2 :=
  let ⟨ps, e, h⟩ := C79_send_sysex7 ⟨0x7E0000, List.replicate 11 5⟩ 3 (by decide)
  ⟨ps, e, h.trans (by decide)⟩

example : ∃ ps, sendSysex8 ⟨0x002109, List.replicate 12 5⟩ 1 3 = .ok ps ∧ ps.length = 2 :=
  let ⟨ps, e, h⟩ := C79_send_sysex8 ⟨0x002109, List.replicate 12 5⟩ 1 3 (by decide)
  ⟨ps, e, h.trans (by decide)⟩

example : ∃ p es, (Parser.new 1 false true).feedAll [0x90, 0x40, 0x41, 0xF8, 0x42, 0x43, 0xF0, 1, 2, 3, 4, 5, 6, 0xF7] = .ok (p, es) ∧
    es.length = 5 := ⟨_, _, rfl, by decide⟩

example : ∃ c ms, ({} : Collector7).feedAll [⟨0x30167E01, 0x02030405, 0, 0⟩, ⟨0x30310600, 0, 0, 0⟩, ⟨0x30310800, 0, 0, 0⟩,
    ⟨0x30017D00, 0, 0, 0⟩] = .ok (c, ms) ∧ ms.length = 2 := ⟨_, _, rfl, by decide⟩

end Midi
