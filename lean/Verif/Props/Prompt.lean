import Verif.Props.OutputCount
import Verif.Lemmas.Release

/-!
# C93: messages are delivered with their last byte
-/

namespace Midi
open Spec

/-- Some bytes and a last one. -/
theorem feed_last {p : Parser} {c : Settings} {st : StreamState} (h : ParserRel c st p) (a : List Byte) (b : Byte) :
    ∃ p1 p2, p.feedAll a = .ok (p1, (stepBytes c st a).2) ∧
      p1.feed b = .ok (p2, (stepByte c (stepBytes c st a).1 b).2) := by
  obtain ⟨p1, e1, r1⟩ := feedAll_rel a h
  obtain ⟨p2, e2, _⟩ := feed_rel r1 b
  exact ⟨p1, p2, e1, e2⟩

/-- Data bytes that do not complete a message. -/
theorem stepBytes_pending (c : Settings) (g s : Byte) : ∀ (d e : List Byte), (∀ b ∈ d, b < 0x80) →
    e.length + d.length < dataBytes s → stepBytes c (.message g s e) d = (.message g s (e ++ d), []) := by
  intro d
  induction d with
  | nil => intro e _ _; simp [stepBytes]
  | cons b d ih =>
    intro e hb hl
    rw [stepBytes_cons, step_message _ _ _ _ (hb b (by simp)), if_neg (by simp at hl; omega),
      ih _ (fun x hx => hb x (by simp [hx])) (by simp at hl ⊢; omega)]
    simp

/-- C93: from any state of the parser, a channel voice or system message other than sysex is delivered with its last byte: the
bytes before it cause no event, the last one exactly one, the packet with this message. -/
theorem C93_short_message (p : Parser) (hp : Reached p) (hon : p.invokeCallbacks = true) (s : Byte) (d : List Byte)
    (hs : 0x80 ≤ s ∧ s < 0xF0 ∨ s ∈ systemStatusBytes) (hl : d.length = dataBytes s) (hd : ∀ b ∈ d, b < 0x80)
    (before : List Byte) (last : Byte) (h : s :: d = before ++ [last]) :
    ∃ p1 p2, p.feedAll before = .ok (p1, []) ∧ p1.feed last = .ok (p2, [.packet (shortMessage p.group s d)]) := by
  obtain ⟨st, hr, _⟩ := reached_rel hp
  obtain ⟨p1, p2, e1, e2⟩ := feed_last hr before last
  by_cases hd0 : d = []
  · subst hd0
    obtain ⟨rfl, rfl⟩ : before = [] ∧ last = s := by
      cases before with
      | nil => simpa using h.symm
      | cons a t => simp at h
    refine ⟨p1, p2, e1, ?_⟩
    rw [e2]
    have h0 : dataBytes last = 0 := hl.symm
    have hcase : last = 0xF6 ∨ last ≥ 0xF8 ∧ ¬ (last = 0xF9 ∨ last = 0xFD) := by
      clear e2 hl h; revert hs h0; revert last; decide +kernel
    rcases hcase with rfl | ⟨h8, h9⟩
    · rw [stepBytes, step_tune, if_pos hon]
    · rw [stepBytes, step_rt _ _ h8, if_pos hon, if_neg h9]
  · obtain ⟨d', rfl, rfl⟩ : ∃ d', before = s :: d' ∧ d = d' ++ [last] := by
      cases before with
      | nil => simp at h; exact absurd h.2 hd0
      | cons a t => simp at h; exact ⟨t, by rw [h.1], h.2⟩
    have hn : dataBytes s ≠ 0 := by rw [← hl]; simp
    have hs8 : ¬ s ≥ 0xF8 := by clear hs e1 e2 hl h; revert hn; revert s; decide +kernel
    have e3 := stepBytes_pending ⟨p.group, p.hasSysexCallback, p.invokeCallbacks⟩ p.group s d' []
      (fun b hb => hd b (by simp [hb])) (by simp at hl ⊢; omega)
    have e4 : stepBytes ⟨p.group, p.hasSysexCallback, p.invokeCallbacks⟩ st (s :: d') = (.message p.group s d', []) := by
      rw [stepBytes_cons, step_new _ _ hs8 hn, e3]; rfl
    rw [e4] at e1 e2
    refine ⟨p1, p2, e1, ?_⟩
    rw [e2, step_message _ _ _ _ (hd last (by simp)), if_pos (by simpa using hl), if_pos hon]

/-- C93: a control change; the last of its three bytes causes the packet. -/
example : ∃ p1 p2, (Parser.new 1 false true).feedAll [0xB3, 7] = .ok (p1, []) ∧
    p1.feed 0x64 = .ok (p2, [.packet ⟨0x21B30764, 0, 0, 0⟩]) := ⟨_, _, rfl, rfl⟩

example : (0x80 ≤ (0xB3 : Byte) ∧ (0xB3 : Byte) < 0xF0 ∨ (0xB3 : Byte) ∈ systemStatusBytes) ∧ dataBytes 0xB3 = 2 ∧
    (0xF1 : Byte) ∈ systemStatusBytes ∧ dataBytes 0xF1 = 1 ∧ (0xF6 : Byte) ∈ systemStatusBytes ∧ dataBytes 0xF6 = 0 := by decide

/-- C93: so is a message in running status, after any number of complete ones. -/
theorem C93_running_status (p : Parser) (hp : Reached p) (hon : p.invokeCallbacks = true) (s : Byte)
    (hs : 0x80 ≤ s ∧ s < 0xF0) (ms : List (List Byte)) (hms : ∀ m ∈ ms, m.length = dataBytes s ∧ ∀ b ∈ m, b < 0x80)
    (d : List Byte) (last : Byte) (hl : (d ++ [last]).length = dataBytes s) (hd : ∀ b ∈ d ++ [last], b < 0x80) :
    ∃ p1 p2, p.feedAll (s :: ms.flatten ++ d) = .ok (p1, ms.map fun m => .packet (shortMessage p.group s m)) ∧
      p1.feed last = .ok (p2, [.packet (shortMessage p.group s (d ++ [last]))]) := by
  obtain ⟨st, hr, _⟩ := reached_rel hp
  obtain ⟨p1, p2, e1, e2⟩ := feed_last hr (s :: ms.flatten ++ d) last
  have h1 : ¬ s ≥ 0xF8 := by clear hms hl e1 e2; revert hs; revert s; decide +kernel
  have h2 : dataBytes s ≠ 0 := by rw [← hl]; simp
  have a1 : ∀ ms : List (List Byte), (∀ m ∈ ms, m.length = dataBytes s ∧ ∀ b ∈ m, b < 0x80) →
      stepBytes ⟨p.group, p.hasSysexCallback, p.invokeCallbacks⟩ (.message p.group s []) ms.flatten =
        (.message p.group s [], ms.map fun m => .packet (shortMessage p.group s m)) := by
    intro ms
    induction ms with
    | nil => intro _; rfl
    | cons m ms ih =>
      intro h
      obtain ⟨hl, hb⟩ := h m (by simp)
      have hne : m ≠ [] := by rintro rfl; exact h2 hl.symm
      rw [List.flatten_cons, stepBytes_append, stepBytes_data _ _ _ m [] hb hne (by simpa using hl), if_pos hs.2,
        ih (fun m hm => h m (by simp [hm]))]
      simp [hon]
  have e4 : stepBytes ⟨p.group, p.hasSysexCallback, p.invokeCallbacks⟩ st (s :: ms.flatten ++ d) =
      (.message p.group s d, ms.map fun m => .packet (shortMessage p.group s m)) := by
    rw [List.cons_append, stepBytes_cons, step_new _ _ h1 h2, stepBytes_append, a1 ms hms,
      stepBytes_pending _ _ s d [] (fun b hb => hd b (by simp [hb])) (by simp at hl ⊢; omega)]
    simp
  rw [e4] at e1 e2
  refine ⟨p1, p2, e1, ?_⟩
  rw [e2, step_message _ _ _ _ (hd last (by simp)), if_pos (by simpa using hl), if_pos hon]

/-- C93: two notes in running status. -/
example : ∃ p1 p2, (Parser.new 1 false true).feedAll [0x90, 60, 100, 62] = .ok (p1, [.packet ⟨0x21903C64, 0, 0, 0⟩]) ∧
    p1.feed 101 = .ok (p2, [.packet ⟨0x21903E65, 0, 0, 0⟩]) := ⟨_, _, rfl, rfl⟩

/-- The state after sysex start and data. -/
theorem sysex_state (c : Settings) (w : Bool) : ∀ (D e : List Byte) (g : Byte), (∀ b ∈ D, b < 0x80) →
    ∃ g', (stepBytes c (.sysex g w e) D).1 = .sysex g' w (e ++ D) := by
  intro D
  induction D with
  | nil => intro e g _; exact ⟨g, by simp [stepBytes]⟩
  | cons b D ih =>
    intro e g h
    rw [stepBytes_cons]
    have hb := h b (by simp)
    have hD : ∀ b ∈ D, b < 0x80 := fun x hx => h x (by simp [hx])
    have key : ∃ g1, (stepByte c (.sysex g w e) b).1 = .sysex g1 w (e ++ [b]) := by
      by_cases hc : c.sysexCallback = true
      · rw [step_sysex_cb c g w e hb hc]; exact ⟨g, rfl⟩
      · rw [step_sysex_packet c g w e hb (by simpa using hc)]
        split <;> exact ⟨_, rfl⟩
    obtain ⟨g1, e1⟩ := key
    obtain ⟨g2, e2⟩ := ih (e ++ [b]) g1 hD
    refine ⟨g2, ?_⟩
    rw [e1]
    simpa using e2

/-- Feeding in two parts is feeding at once. -/
theorem feedAll_last {p p1 p2 : Parser} {a : List Byte} {b : Byte} {e1 e2 : List Event} (h1 : p.feedAll a = .ok (p1, e1))
    (h2 : p1.feed b = .ok (p2, e2)) : p.feedAll (a ++ [b]) = .ok (p2, e1 ++ e2) := by
  rw [feedAll_append, h1]
  show ((p1.feedAll [b]).map fun q => (q.1, e1 ++ q.2)) = _
  rw [Parser.feedAll, h2, ok_bind]
  simp [Parser.feedAll, ok_bind, Except.map, pure_eq_ok]

/-- C93: with a sysex callback, from any state of the parser, a sysex message is delivered with F7: sysex start, the manufacturer
id and the data cause no event, F7 exactly one, the call of the sysex callback with this message. -/
theorem C93_sysex_message (p : Parser) (hp : Reached p) (hm : p.hasSysexCallback = true) (hon : p.invokeCallbacks = true)
    (m : Sysex) (hid : GenuineId m.manufacturerID) (hd : ∀ b ∈ m.data, b < 0x80) :
    ∃ p1 p2, p.feedAll (0xF0 :: (idBytes7 m.manufacturerID ++ m.data)) = .ok (p1, []) ∧
      p1.feed 0xF7 = .ok (p2, [.sysex m]) := by
  obtain ⟨st, hr, _⟩ := reached_rel hp
  obtain ⟨p1, p2, e1, e2⟩ := feed_last hr (0xF0 :: (idBytes7 m.manufacturerID ++ m.data)) 0xF7
  have hall : ∀ b ∈ idBytes7 m.manufacturerID ++ m.data, b < 0x80 := by
    intro b hb
    rcases List.mem_append.1 hb with h | h
    · exact idBytes7_lt hid b h
    · exact hd b h
  have e3 : stepBytes ⟨p.group, p.hasSysexCallback, p.invokeCallbacks⟩ st (0xF0 :: (idBytes7 m.manufacturerID ++ m.data)) =
      (.sysex p.group true (idBytes7 m.manufacturerID ++ m.data), []) := by
    rw [stepBytes_cons, step_start]
    dsimp only
    rw [sysex_data_cb _ hm _ _ _ [] hall, hon]
    rfl
  rw [e3] at e1 e2
  dsimp only at e1 e2
  rw [step_end_cb _ _ _ _ hm, if_pos hon] at e2
  obtain ⟨p', es, f1, f2, _⟩ := C30_sysex_callback p hp hm hon m hid hd (idBytes7 m.manufacturerID ++ m.data) (by
    rw [List.filter_eq_self]
    intro b hb
    have := hall b hb
    rw [decide_eq_true_eq]
    clear hb
    revert this; revert b; decide +kernel)
  by_cases hH : HasId (idBytes7 m.manufacturerID ++ m.data)
  · rw [if_pos ⟨rfl, hH⟩] at e2
    have f3 := feedAll_last e1 e2
    rw [List.cons_append, f1] at f3
    simp only [Except.ok.injEq, Prod.mk.injEq, List.nil_append] at f3
    rw [f3.2] at f2
    exact ⟨p1, p2, e1, by rw [e2]; exact congrArg (fun x => Except.ok (p2, x)) f2⟩
  · rw [if_neg (fun h => hH h.2)] at e2
    have f3 := feedAll_last e1 e2
    rw [List.cons_append, f1] at f3
    simp only [Except.ok.injEq, Prod.mk.injEq, List.nil_append] at f3
    rw [f3.2] at f2
    simp at f2

/-- C93: an identity request. -/
example : ∃ p1 p2, (Parser.new 1 true true).feedAll [0xF0, 0x7E, 0x7F, 6, 1] = .ok (p1, []) ∧
    p1.feed 0xF7 = .ok (p2, [.sysex ⟨0x7E0000, [0x7F, 6, 1]⟩]) ∧ GenuineId 0x7E0000 := ⟨_, _, rfl, rfl, by decide⟩

/-- C93: without sysex callback, from any state of the parser, at most five data bytes of sysex wait for a packet: after sysex
start and any number of data bytes, the packets sent hold six bytes each and all data bytes but those that do not fill another
packet; these go out with F7, in one packet. -/
theorem C93_sysex_packets (p : Parser) (hp : Reached p) (hm : p.hasSysexCallback = false) (hon : p.invokeCallbacks = true)
    (D : List Byte) (hD : ∀ b ∈ D, b < 0x80) :
    ∃ (p1 p2 : Parser) (ps last : List Packet), p.feedAll (0xF0 :: D) = .ok (p1, ps.map .packet) ∧ p1.feed 0xF7 = .ok (p2, last.map .packet) ∧
      (∀ q ∈ ps ++ last, IsSysex7 q ∧ groupOf q = p.group.toNat) ∧ (∀ q ∈ ps, (payload7 q).length = 6) ∧
      ps.flatMap payload7 = D.take (D.length / 6 * 6) ∧ last.flatMap payload7 = D.drop (D.length / 6 * 6) ∧
      last.length = if D = [] then 0 else 1 := by
  obtain ⟨st, hr, _⟩ := reached_rel hp
  have hg16 : p.group < 16 := hr.lt
  obtain ⟨p1, p2, e1, e2⟩ := feed_last hr (0xF0 :: D) 0xF7
  obtain ⟨g', e3⟩ : ∃ g', (stepBytes ⟨p.group, p.hasSysexCallback, p.invokeCallbacks⟩ st (0xF0 :: D)).1 = .sysex g' true D := by
    obtain ⟨g', e⟩ := sysex_state ⟨p.group, p.hasSysexCallback, p.invokeCallbacks⟩ true D [] p.group hD
    refine ⟨g', ?_⟩
    rw [stepBytes_cons, step_start]
    dsimp only
    rw [hon] at e ⊢
    simpa using e
  rw [e3, step_end_packet _ _ _ _ hm, if_pos hon] at e2
  have tot := sysex_packets ⟨p.group, p.hasSysexCallback, p.invokeCallbacks⟩ hm hon st D hD
  rw [show (0xF0 :: (D ++ [0xF7]) : List Byte) = (0xF0 :: D) ++ [0xF7] from rfl, stepBytes_append, e3, stepBytes_cons,
    step_end_packet _ _ _ _ hm, if_pos hon] at tot
  obtain ⟨E, hE⟩ : ∃ E, (stepBytes ⟨p.group, p.hasSysexCallback, p.invokeCallbacks⟩ st (0xF0 :: D)).2 = E := ⟨_, rfl⟩
  rw [hE] at tot e1
  have tot2 := congrArg Prod.snd tot
  dsimp only [stepBytes] at tot2
  rw [List.append_nil] at tot2
  by_cases h0 : D = []
  · rw [if_pos h0, if_pos h0, List.append_nil] at tot2
    rw [if_pos h0] at e2
    rw [tot2] at e1
    refine ⟨p1, p2, [], [], e1, e2, by simp, by simp, by simp [h0], by simp [h0], by simp [h0]⟩
  · rw [if_neg h0, if_neg h0] at tot2
    rw [if_neg h0] at e2
    obtain ⟨f1, f2, f3, f4, f5⟩ := parserChunks_facts D
    obtain ⟨qs, c1, c2, c3, c4, c5⟩ := chunk_events hg16 (parserChunks D) f4
    have hlen : qs.length = D.length / 6 + 1 := by
      rw [← f5]; simpa using congrArg List.length c3
    have hfull := full_dropLast c5 f3
    rw [c1] at tot2
    have hne : qs ≠ [] := by rintro rfl; simp at hlen
    have hsplit : qs.dropLast ++ [qs.getLast hne] = qs := List.dropLast_concat_getLast hne
    obtain ⟨q0, hq0⟩ : ∃ q0 : Packet, (if D.length < 6 then [.packet (sysexPacket g' 0 D)]
        else [.packet (sysexPacket g' 3 (D.drop (D.length / 6 * 6)))]) = [Event.packet q0] := by split <;> exact ⟨_, rfl⟩
    rw [hq0] at tot2 e2
    rw [← hsplit, List.map_append, List.map_singleton] at tot2
    obtain ⟨t1, t2⟩ := List.append_inj' tot2 rfl
    rw [t1] at e1
    rw [t2] at e2
    have hD' : qs.dropLast.flatMap payload7 ++ payload7 (qs.getLast hne) = D := by
      rw [← f2, ← c4]
      conv_rhs => rw [← hsplit]
      simp
    have hl : (qs.dropLast.flatMap payload7).length = D.length / 6 * 6 := by
      rw [List.length_flatMap, List.map_congr_left hfull, List.map_const', List.sum_replicate_nat, List.length_dropLast, hlen,
        Nat.add_sub_cancel]
    refine ⟨p1, p2, qs.dropLast, [qs.getLast hne], e1, e2, by rw [hsplit]; exact c2, hfull, ?_, ?_, by simp [h0]⟩
    · rw [← hl]
      conv_rhs => rw [← hD']
      rw [List.take_left]
    · rw [← hl]
      conv_rhs => rw [← hD']
      rw [List.drop_left]
      simp

/-- C93: eight data bytes, two of which are held back until F7. -/
example : ∃ p1 p2, (Parser.new 1 false true).feedAll [0xF0, 1, 2, 3, 4, 5, 6, 7, 8] =
    .ok (p1, [.packet ⟨0x31160102, 0x03040506, 0, 0⟩]) ∧
    p1.feed 0xF7 = .ok (p2, [.packet ⟨0x31320708, 0, 0, 0⟩]) := ⟨_, _, rfl, rfl⟩

/-- A collector fed with some packets and a last one. -/
theorem split7 : ∀ (a : List Packet) (b : Packet) {c c' : Collector7} {out : List (Sysex)},
    c.feedAll (a ++ [b]) = .ok (c', out) →
    ∃ c1 o1 o2, c.feedAll a = .ok (c1, o1) ∧ c1.feed b = .ok (c', o2) ∧ out = o1 ++ o2 := by
  intro a
  induction a with
  | nil =>
    intro b c c' out h
    rw [List.nil_append, Collector7.feedAll] at h
    obtain ⟨⟨q, w⟩, e, h⟩ := Release.bind_ok_split h
    simp [Collector7.feedAll, pure_eq_ok, ok_bind] at h
    obtain ⟨rfl, rfl⟩ := h
    exact ⟨c, [], w, rfl, e, rfl⟩
  | cons x a ih =>
    intro b c c' out h
    rw [List.cons_append, Collector7.feedAll] at h
    obtain ⟨⟨q, w⟩, e, h⟩ := Release.bind_ok_split h
    dsimp only at h
    obtain ⟨⟨q2, w2⟩, e2, h⟩ := Release.bind_ok_split h
    simp [pure_eq_ok] at h
    obtain ⟨rfl, rfl⟩ := h
    obtain ⟨c1, o1, o2, f1, f2, rfl⟩ := ih b e2
    refine ⟨c1, w ++ o1, o2, ?_, f2, by simp⟩
    rw [Collector7.feedAll, e, ok_bind]
    dsimp only
    rw [f1, ok_bind]
    rfl

/-- A collector fed with some packets and a last one. -/
theorem split8 : ∀ (a : List Packet) (b : Packet) {c c' : Collector8} {out : List (Sysex × Byte)},
    c.feedAll (a ++ [b]) = .ok (c', out) →
    ∃ c1 o1 o2, c.feedAll a = .ok (c1, o1) ∧ c1.feed b = .ok (c', o2) ∧ out = o1 ++ o2 := by
  intro a
  induction a with
  | nil =>
    intro b c c' out h
    rw [List.nil_append, Collector8.feedAll] at h
    obtain ⟨⟨q, w⟩, e, h⟩ := Release.bind_ok_split h
    simp [Collector8.feedAll, pure_eq_ok, ok_bind] at h
    obtain ⟨rfl, rfl⟩ := h
    exact ⟨c, [], w, rfl, e, rfl⟩
  | cons x a ih =>
    intro b c c' out h
    rw [List.cons_append, Collector8.feedAll] at h
    obtain ⟨⟨q, w⟩, e, h⟩ := Release.bind_ok_split h
    dsimp only at h
    obtain ⟨⟨q2, w2⟩, e2, h⟩ := Release.bind_ok_split h
    simp [pure_eq_ok] at h
    obtain ⟨rfl, rfl⟩ := h
    obtain ⟨c1, o1, o2, f1, f2, rfl⟩ := ih b e2
    refine ⟨c1, w ++ o1, o2, ?_, f2, by simp⟩
    rw [Collector8.feedAll, e, ok_bind]
    dsimp only
    rw [f1, ok_bind]
    rfl

/-- In correctly framed packets only the last one is a complete or end packet. -/
theorem framed_before {ps : List Packet} {q : Packet} (h : Framed ((ps ++ [q]).map formatCode)) :
    ∀ p ∈ ps, formatCode p ≠ 0 ∧ formatCode p ≠ 3 := by
  rw [List.map_append, List.map_singleton] at h
  have key : ∀ x ∈ ps.map formatCode, x ≠ 0 ∧ x ≠ 3 := by
    rcases h with h | ⟨n, h⟩
    · have : ps.map formatCode = [] := by
        have := congrArg List.length h
        simp at this
        simp [this]
      simp [this]
    · rw [← List.cons_append] at h
      rw [(List.append_inj' h rfl).1]
      intro x hx
      rcases List.mem_cons.1 hx with rfl | hx
      · decide
      · rw [List.eq_of_mem_replicate hx]; decide
  exact fun p hp => key _ (List.mem_map.2 ⟨p, hp, rfl⟩)

/-- C93: whatever a sysex7 collector without size limit was fed before, the message of `send_sysex7` is delivered with its last
packet: the packets before cause no callback, the last one exactly one, with this message. -/
theorem C93_collector7 (hist : List Packet) (m : Sysex) (g : Byte) (hm : Sendable7 (m, g)) (ps : List Packet) (last : Packet)
    (hs : sendSysex7 m g = .ok (ps ++ [last])) :
    ∃ c before c1 c2, ({} : Collector7).feedAll hist = .ok (c, before) ∧ c.feedAll ps = .ok (c1, []) ∧
      c1.feed last = .ok (c2, [m]) := by
  obtain ⟨ps', e', k1, k2, _⟩ := C17_send_sysex7 m g hm.2.2 hm.1
  rw [hs] at e'
  cases e'
  obtain ⟨c, before, c', f1, f2⟩ := C18_sysex7_round_trip hist [(m, g)] (by simpa using hm) [ps ++ [last]]
    (by simp [hs, pure_eq_ok, ok_bind]) (ps ++ [last]) (by
      rw [List.filter_eq_self.2 (fun p hp => decide_eq_true (k1 p hp).1)]; simp)
  obtain ⟨c1, o1, o2, g1, g2, g3⟩ := split7 _ _ f2
  have h0 := C79_collector7 ps c c1 o1 g1
  rw [List.countP_eq_zero.2 (fun p hp => by
    have := framed_before k2 p hp
    simp only [decide_eq_true_eq]
    rintro ⟨_, h | h⟩
    · exact this.1 h
    · exact this.2 h)] at h0
  obtain rfl : o1 = [] := List.length_eq_zero_iff.1 (by omega)
  exact ⟨c, before, c1, c', f1, g1, by rw [g2, ← List.nil_append o2, ← g3]; rfl⟩

/-- C93: so is the message of `send_sysex8`, if it is one of those that arrive at all. -/
theorem C93_collector8 (hist : List Packet) (m : Sysex) (st g : Byte) (hm : Sendable8 (m, st, g)) (ps : List Packet)
    (last : Packet) (hs : sendSysex8 m st g = .ok (ps ++ [last])) :
    ∃ c before c1 c2, ({} : Collector8).feedAll hist = .ok (c, before) ∧ c.feedAll ps = .ok (c1, []) ∧
      c1.feed last = .ok (c2, [(m, st)]) := by
  obtain ⟨ps', e', k1, _⟩ := C19_any_id m st g hm.2.2
  rw [hs] at e'
  cases e'
  obtain ⟨_, e', k2⟩ := C19_send_sysex8_framed_partial m st g hm.2.2 hm.1
  rw [hs] at e'
  cases e'
  have k2 := k2.2 hm.2.1
  obtain ⟨c, before, c', f1, f2⟩ := C20_sysex8_round_trip_partial hist [(m, st, g)] (by simpa using hm) [ps ++ [last]]
    (by simp [hs, pure_eq_ok, ok_bind]) (ps ++ [last]) (by
      rw [List.filter_eq_self.2 (fun p hp => decide_eq_true (k1 p hp).1)]; simp)
  obtain ⟨c1, o1, o2, g1, g2, g3⟩ := split8 _ _ f2
  have h0 := C79_collector8 ps c c1 o1 g1
  rw [List.countP_eq_zero.2 (fun p hp => by
    have := framed_before k2 p hp
    simp only [decide_eq_true_eq]
    rintro ⟨_, h | h⟩
    · exact this.1 h
    · exact this.2 h)] at h0
  obtain rfl : o1 = [] := List.length_eq_zero_iff.1 (by omega)
  exact ⟨c, before, c1, c', f1, g1, by rw [g2, ← List.nil_append o2, ← g3]; rfl⟩

/-- C93: messages of two packets. -/
example : Sendable7 (⟨0x7E0000, [0x7F, 6, 1, 2, 3, 4]⟩, 3) ∧
    (∃ p q, sendSysex7 ⟨0x7E0000, [0x7F, 6, 1, 2, 3, 4]⟩ 3 = .ok ([p] ++ [q])) ∧
    Sendable8 (⟨0x7E0000, [0x7F, 6, 1, 2, 3, 4, 5, 6, 7, 8, 9, 10, 11]⟩, 1, 3) ∧
    (∃ p q, sendSysex8 ⟨0x7E0000, [0x7F, 6, 1, 2, 3, 4, 5, 6, 7, 8, 9, 10, 11]⟩ 1 3 = .ok ([p] ++ [q])) :=
  ⟨by decide, ⟨_, _, rfl⟩, by decide, ⟨_, _, rfl⟩⟩

end Midi
