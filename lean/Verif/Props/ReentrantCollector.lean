import Verif.Lemmas.ReentrantCollector

/-!
# C62, C63: callbacks of collectors that use the collector
-/

namespace Midi
open Spec

/-! ## 7 bit sysex -/

/-- C62: whatever calls of the collector its callbacks make, to any depth, there is no memory error and no failed assertion. The
messages delivered are exactly those of the reference machine. -/
theorem C62_calls_exactly (cs : List CollectorCall) :
    ∃ c, ({} : Collector7).performAll cs = .ok (c, ((({} : Held7).calls cs).2).map message7) :=
  ⟨_, (calls7_exact cs {} (Nat.le_refl _)).1⟩

/-- Data put together from payloads of some of the packets. -/
def Built7 (h : List Packet) (d : List Byte) : Prop :=
  ∃ ps : List Packet, ps.Sublist h ∧ (∀ p ∈ ps, IsSysex7 p) ∧ d = (ps.map payload7).flatten

theorem Built7.mono {h h' : List Packet} {d : List Byte} (hd : Built7 h d) (hh : h.Sublist h') : Built7 h' d := by
  obtain ⟨ps, h1, h2⟩ := hd
  exact ⟨ps, h1.trans hh, h2⟩

theorem Built7.append {h : List Packet} {d : List Byte} (hd : Built7 h d) {p : Packet} (hp : IsSysex7 p) :
    Built7 (h ++ [p]) (d ++ payload7 p) := by
  obtain ⟨ps, h1, h2, rfl⟩ := hd
  refine ⟨ps ++ [p], h1.append_right [p], ?_, by simp⟩
  intro q hq
  rcases List.mem_append.1 hq with h | h
  · exact h2 q h
  · rw [List.mem_singleton.1 h]; exact hp

theorem built7_nil (h : List Packet) : Built7 h [] := ⟨[], List.nil_sublist _, by simp, rfl⟩

theorem built7_add (s : Held7) {h : List Packet} (hs : Built7 h s.held) {p : Packet} (hp : IsSysex7 p) (l : List Packet)
    (k : Bool) (r : Held7 → Held7 × List (List Byte))
    (hr : ∀ t : Held7, Built7 (h ++ [p]) t.held →
      Built7 (h ++ [p] ++ l) (r t).1.held ∧ ∀ m ∈ (r t).2, Built7 (h ++ [p] ++ l) m) :
    Built7 (h ++ [p] ++ l) (s.addR k (payload7 p) r).1.held ∧
    ∀ m ∈ (s.addR k (payload7 p) r).2, Built7 (h ++ [p] ++ l) m := by
  have hsub : (h ++ [p]).Sublist (h ++ [p] ++ l) := List.sublist_append_left _ _
  have hsub' : h.Sublist (h ++ [p] ++ l) := (List.sublist_append_left _ _).trans hsub
  unfold Held7.addR
  dsimp only
  split
  · split
    · split
      · refine ⟨built7_nil _, ?_⟩
        intro m hm
        rcases List.mem_cons.1 hm with rfl | hm
        · exact (hs.append hp).mono hsub
        · exact (hr _ (hs.append hp)).2 m hm
      · exact ⟨built7_nil _, by simp⟩
    · exact ⟨(hs.append hp).mono hsub, by simp⟩
  · exact ⟨hs.mono hsub', by simp⟩

mutual
theorem built7_call : ∀ (o : CollectorCall) (s : Held7) (h : List Packet), Built7 h s.held →
    Built7 (h ++ packetsFed o) (s.call o).1.held ∧ ∀ m ∈ (s.call o).2, Built7 (h ++ packetsFed o) m
  | .feed p l, s, h, hs => by
    have ih := fun t ht => built7_calls l t (h ++ [p]) ht
    have hsub : h.Sublist (h ++ [p] ++ packetsFedAll l) :=
      (List.sublist_append_left _ _).trans (List.sublist_append_left _ _)
    simp only [Held7.call, packetsFed]
    rw [show h ++ p :: packetsFedAll l = h ++ [p] ++ packetsFedAll l by simp]
    by_cases hp : IsSysex7 p
    · rw [if_pos hp]
      unfold Held7.packetR
      split
      · refine built7_add _ ?_ hp _ _ _ ih
        show Built7 h (if s.running = true then s.cleared else s).held
        split
        · exact built7_nil _
        · exact hs
      · split
        · exact built7_add s hs hp _ _ _ ih
        · exact ⟨built7_nil _, by simp⟩
    · rw [if_neg hp]
      exact ⟨hs.mono hsub, by simp⟩
  | .setMaxSize k, s, h, hs => by
    simp only [Held7.call, packetsFed, List.append_nil]
    exact ⟨hs, by simp⟩
  | .reset, s, h, hs => by
    simp only [Held7.call, packetsFed, List.append_nil]
    exact ⟨built7_nil _, by simp⟩

theorem built7_calls : ∀ (l : List CollectorCall) (s : Held7) (h : List Packet), Built7 h s.held →
    Built7 (h ++ packetsFedAll l) (s.calls l).1.held ∧ ∀ m ∈ (s.calls l).2, Built7 (h ++ packetsFedAll l) m
  | [], s, h, hs => by
    simp only [Held7.calls, packetsFedAll, List.append_nil]
    exact ⟨hs, by simp⟩
  | o :: l, s, h, hs => by
    obtain ⟨h1, h2⟩ := built7_call o s h hs
    obtain ⟨h3, h4⟩ := built7_calls l _ _ h1
    simp only [Held7.calls, packetsFedAll]
    rw [← List.append_assoc]
    refine ⟨h3, ?_⟩
    intro m hm
    rcases List.mem_append.1 hm with hm | hm
    · exact (h2 m hm).mono (List.sublist_append_left _ _)
    · exact h4 m hm
end

/-- C62: every message delivered, also while callbacks use the collector, is put together from the payloads of sysex packets
that were fed, in the order in which they were fed. -/
theorem C62_nothing_invented (cs : List CollectorCall) :
    ∃ c out, ({} : Collector7).performAll cs = .ok (c, out) ∧ ∀ m ∈ out,
      ∃ ps : List Packet, ps.Sublist (packetsFedAll cs) ∧ (∀ p ∈ ps, IsSysex7 p) ∧ m = message7 (ps.map payload7).flatten := by
  refine ⟨_, _, (calls7_exact cs {} (Nat.le_refl _)).1, ?_⟩
  intro m hm
  obtain ⟨d, hd, rfl⟩ := List.mem_map.1 hm
  obtain ⟨ps, h1, h2, h3⟩ := (built7_calls cs {} [] (built7_nil _)).2 d hd
  exact ⟨ps, h1, h2, by rw [h3]⟩

/-- C62: after a delivery the collector is like a new one with the same settings, whatever the callback did. -/
theorem C62_fresh_after_delivery (c c' : Collector7) (p : Packet) (inside : List CollectorCall) (m : Sysex) (out : List (Sysex))
    (h : c.perform (.feed p inside) = .ok (c', m :: out)) :
    c'.capacity ≤ 16384 ∧
    c' = { ({} : Collector7) with capacity := c'.capacity, maxSize := c'.maxSize, hasCallback := c'.hasCallback } := by
  simp only [Collector7.perform] at h
  rcases feedR7_spec c p (fun c => c.performAll inside) with ⟨c1, -, e⟩ | ⟨d, -, e, -⟩ | ⟨f, -, e⟩
  · rw [e] at h; simp at h
  · rw [e] at h
    cases hr : d.performAll inside with
    | error f => rw [hr] at h; cases h
    | ok v =>
      obtain ⟨v1, v2⟩ := v
      rw [hr, ok_bind] at h
      cases h
      refine ⟨?_, rfl⟩
      unfold Collector7.reset vecClearCap
      dsimp only
      split <;> omega
  · rw [e] at h; simp at h

example := C62_fresh_after_delivery ({} : Collector7) _ ⟨0x30027E01, 0, 0, 0⟩ [.feed ⟨0x30027D02, 0, 0, 0⟩ []] _ _ rfl

/-- C63: with callbacks that leave the collector alone, this is the collector of C21, C22 and C24. -/
theorem C63_plain (ps : List Packet) : ∀ c : Collector7, c.performAll (ps.map fun p => .feed p []) = c.feedAll ps := by
  induction ps with
  | nil => intro c; simp only [List.map_nil, Collector7.performAll, Collector7.feedAll]
  | cons p ps ih =>
    intro c
    simp only [List.map_cons, Collector7.performAll, Collector7.feedAll, Collector7.perform]
    rcases feedR7_spec c p (fun c => .ok (c, [])) with ⟨c1, e1, e⟩ | ⟨d, e1, e, -⟩ | ⟨f, e1, e⟩
    · rw [e, e1, ok_bind, ok_bind]
      dsimp only
      rw [ih]
    · rw [e, e1]
      simp only [ok_bind, pure_eq_ok]
      rw [ih]
    · rw [e, e1]; rfl

theorem resets7 (l : List CollectorCall) (hl : ∀ o ∈ l, o = .reset) : ∀ c : Collector7,
    ∃ c', c.performAll l = .ok (c', []) ∧ c.reset.afterAll l = .ok (c.reset, []) ∧ c'.reset = c.reset := by
  induction l with
  | nil =>
    intro c
    exact ⟨c, by simp only [Collector7.performAll], by simp only [Collector7.afterAll], rfl⟩
  | cons o l ih =>
    intro c
    obtain rfl := hl o (by simp)
    obtain ⟨c', e1, -, e3⟩ := ih (fun o ho => hl o (by simp [ho])) c.reset
    obtain ⟨-, -, e2, -⟩ := ih (fun o ho => hl o (by simp [ho])) c
    refine ⟨c', ?_, ?_, by rw [e3, reset7_reset]⟩
    · simp only [Collector7.performAll, Collector7.perform, ok_bind, e1]; rfl
    · simp only [Collector7.afterAll, Collector7.after, ok_bind, reset7_reset, e2]; rfl

/-- C63: a callback may reset the collector. The effect is that of a reset right after. -/
theorem C63_resets_inside_partial (cs : List CollectorCall) (h : ∀ o ∈ cs, OnlyResets o) : ∀ c : Collector7,
    c.performAll cs = c.afterAll cs := by
  induction cs with
  | nil => intro c; simp only [Collector7.performAll, Collector7.afterAll]
  | cons o cs ih =>
    intro c
    have ih := ih (fun o ho => h o (by simp [ho]))
    have ho := h o (by simp)
    have : c.perform o = c.after o := by
      cases o with
      | setMaxSize k => simp only [Collector7.perform, Collector7.after]
      | reset => simp only [Collector7.perform, Collector7.after]
      | feed p l =>
        simp only [Collector7.perform, Collector7.after]
        rcases feedR7_spec c p (fun c => c.performAll l) with ⟨c1, e1, e⟩ | ⟨d, e1, e, -⟩ | ⟨f, e1, e⟩
        · rw [e, e1]; simp [pure_eq_ok]
        · obtain ⟨d', e3, e4, e5⟩ := resets7 l ho d
          rw [e, e1, e3, ok_bind, ok_bind]
          dsimp only
          rw [if_neg (by simp), e4, e5]; rfl
        · rw [e, e1]; rfl
    simp only [Collector7.performAll, Collector7.afterAll, this]
    cases c.after o with
    | error f => rfl
    | ok v => simp only [ok_bind, ih]

example := C63_resets_inside_partial [.feed ⟨0x30127D02, 0, 0, 0⟩ [], .feed ⟨0x30310300, 0, 0, 0⟩ [.reset, .reset], .setMaxSize 9] (by simp [OnlyResets])

/-- C63: a callback that begins with a reset of the collector may then use it in any way. The effect is that of the same calls
right after, followed by one more reset; what is begun by the callback and is not complete when it returns is lost. -/
theorem C63_reset_first_partial (c c1 : Collector7) (p : Packet) (inside : List CollectorCall) (m : Sysex)
    (h : c.feed p = .ok (c1, [m])) :
    c.perform (.feed p (.reset :: inside)) = do
      let (c2, out) ← c1.performAll inside
      return (c2.reset, m :: out) := by
  simp only [Collector7.perform]
  rcases feedR7_spec c p (fun c => c.performAll (.reset :: inside)) with ⟨c1, e1, e⟩ | ⟨d, e1, e, -⟩ | ⟨f, e1, e⟩
  · rw [e1] at h; simp at h
  · rw [e1] at h
    cases h
    rw [e]
    simp only [Collector7.performAll, Collector7.perform, ok_bind]
    cases Collector7.performAll d.reset inside <;> rfl
  · rw [e1] at h; simp at h

example := C63_reset_first_partial ({} : Collector7) _ ⟨0x30027E01, 0, 0, 0⟩ [.feed ⟨0x30027D02, 0, 0, 0⟩ []] _ rfl

/-- C63: in the callback for a message that ends with an end packet, another message may be fed if it begins with a complete or a
start packet; then anything may follow. The effect is that of the same calls right after, followed by a reset. -/
theorem C63_end_packet_partial (c c1 : Collector7) (p q : Packet) (l inside : List CollectorCall) (m : Sysex)
    (h : c.feed p = .ok (c1, [m])) (hp : IsSysex7 p) (hend : formatCode p = 3) (hq : IsSysex7 q) (hfirst : formatCode q ≤ 1) :
    c.perform (.feed p (.feed q l :: inside)) = do
      let (c2, out) ← c1.performAll (.feed q l :: inside)
      return (c2.reset, m :: out) := by
  simp only [Collector7.perform]
  have hnot : ¬ (sysex7ViewStatus p = 0x00 ∨ sysex7ViewStatus p = 0x10) := by
    rw [(code_iff p hp).1, (code_iff p hp).2.1]; omega
  have hqs : sysex7ViewStatus q = 0x00 ∨ sysex7ViewStatus q = 0x10 := by
    rw [(code_iff q hq).1, (code_iff q hq).2.1]; omega
  have hqb : isSysex7Packet q = true := (C15_is_sysex7_packet_iff q).2 hq
  rcases feedR7_spec c p (fun c => c.performAll (.feed q l :: inside)) with ⟨c1, e1, e⟩ | ⟨d, e1, e, hst⟩ | ⟨f, e1, e⟩
  · rw [e1] at h; simp at h
  · rw [e1] at h
    cases h
    rw [e]
    have hfeed : d.feedR q (fun c => c.performAll l) = d.reset.feedR q (fun c => c.performAll l) := by
      have hv : sysex7View q = .ok q := by unfold sysex7View; rw [assert_ok hqb]; rfl
      unfold Collector7.feedR
      rw [hv, hst hnot]
      simp only [hqb, Bool.not_true, Bool.false_eq_true, if_false, ok_bind, if_pos hqs]
      rw [if_pos (by decide), if_neg (show ¬ d.reset.state ≠ 0x10 from fun h => h rfl)]
    simp only [Collector7.performAll, Collector7.perform, hfeed]
  · rw [e1] at h; simp at h

example := C63_end_packet_partial (match ({} : Collector7).feed ⟨0x30127D02, 0, 0, 0⟩ with | .ok r => r.1 | .error _ => {}) _ ⟨0x30310300, 0, 0, 0⟩ ⟨0x30027E01, 0, 0, 0⟩
  [.setMaxSize 9] [.reset] _ rfl (by decide) (by decide) (by decide) (by decide)

theorem delivered7 (cs : List CollectorCall) : (({} : Collector7).performAll cs).map Prod.snd =
    .ok (((({} : Held7).calls cs).2).map message7) := by
  have e := (calls7_exact cs {} (Nat.le_refl _)).1
  dsimp only at e
  rw [show ({} : Collector7) = conc7 {} from rfl, e]; rfl

/-- C63 is false: in the callback for a message that is one complete packet, the message is still held, and another complete
packet is appended to it. -/
theorem C63_complete_packets_merge (p q : Packet) (hp : IsSysex7 p) (hq : IsSysex7 q) (h0 : formatCode p = 0) (h1 : formatCode q = 0) :
    (({} : Collector7).performAll [.feed p [.feed q []]]).map Prod.snd =
      .ok [message7 (payload7 p), message7 (payload7 p ++ payload7 q)] ∧
    (({} : Collector7).afterAll [.feed p [.feed q []]]).map Prod.snd = .ok [message7 (payload7 p), message7 (payload7 q)] := by
  constructor
  · rw [delivered7]
    simp [Held7.calls, Held7.call, if_pos hp, if_pos hq, h0, h1, Held7.packetR, Held7.addR, Held7.cleared, room]
  · obtain ⟨e1, g1⟩ := packet7_exact {} (Nat.le_refl _) p hp
    obtain ⟨e2, g2⟩ := packet7_exact _ g1 q hq
    rw [show conc7 {} = ({} : Collector7) from rfl] at e1
    simp only [Collector7.afterAll, Collector7.after]
    rw [e1, ok_bind]
    dsimp only
    rw [if_neg (by simp [h0, Held7.packet, Held7.add, room]), e2, ok_bind]
    simp [h0, h1, Held7.packet, Held7.add, Held7.cleared, room, ok_bind, pure_eq_ok, Except.map]

example := C63_complete_packets_merge ⟨0x30027E01, 0, 0, 0⟩ ⟨0x30027D02, 0, 0, 0⟩ (by decide) (by decide) (by decide) (by decide)

/-- C63 is false: a message that the callback begins is lost, even if the rest of it follows. -/
theorem C63_unfinished_lost (p q r : Packet) (hp : IsSysex7 p) (hq : IsSysex7 q) (hr : IsSysex7 r) (h0 : formatCode p = 0)
    (h1 : formatCode q = 1) (h3 : formatCode r = 3) :
    (({} : Collector7).performAll [.feed p [.feed q []], .feed r []]).map Prod.snd = .ok [message7 (payload7 p)] ∧
    (({} : Collector7).afterAll [.feed p [.feed q []], .feed r []]).map Prod.snd =
      .ok [message7 (payload7 p), message7 (payload7 q ++ payload7 r)] := by
  constructor
  · rw [delivered7]
    simp [Held7.calls, Held7.call, if_pos hp, if_pos hq, if_pos hr, h0, h1, h3, Held7.packetR, Held7.addR, Held7.cleared, room]
  · obtain ⟨e1, g1⟩ := packet7_exact {} (Nat.le_refl _) p hp
    obtain ⟨e2, g2⟩ := packet7_exact _ g1 q hq
    obtain ⟨e3, g3⟩ := packet7_exact _ g2 r hr
    rw [show conc7 {} = ({} : Collector7) from rfl] at e1
    simp only [Collector7.afterAll, Collector7.after]
    rw [e1, ok_bind]
    dsimp only
    rw [if_neg (by simp [h0, Held7.packet, Held7.add, room]), e2, ok_bind]
    dsimp only
    rw [if_pos (by simp [h0, h1, Held7.packet, Held7.add, Held7.cleared, room])]
    simp only [ok_bind, pure_eq_ok]
    rw [e3, ok_bind]
    simp [h0, h1, h3, Held7.packet, Held7.add, Held7.cleared, room, ok_bind, pure_eq_ok, Except.map]

-- the hypotheses are met: two complete packets, and a complete one followed by a message of two packets
/-- C63 is false as a whole: not for all calls of a collector, which its callbacks may make too, are the messages delivered those of the
same calls made right after. -/
theorem C63_false : ¬ ∀ cs : List CollectorCall,
    (({} : Collector7).performAll cs).map Prod.snd = (({} : Collector7).afterAll cs).map Prod.snd := by
  intro h
  have h := h [.feed ⟨0x30027E01, 0, 0, 0⟩ [.feed ⟨0x30027D02, 0, 0, 0⟩ []]]
  obtain ⟨h1, h2⟩ := C63_complete_packets_merge ⟨0x30027E01, 0, 0, 0⟩ ⟨0x30027D02, 0, 0, 0⟩ (by decide +kernel) (by decide +kernel)
    (by decide +kernel) (by decide +kernel)
  rw [h1, h2] at h
  revert h
  decide +kernel

example : IsSysex7 ⟨0x30027E01, 0, 0, 0⟩ ∧ IsSysex7 ⟨0x30027D02, 0, 0, 0⟩ ∧ IsSysex7 ⟨0x30127D02, 0, 0, 0⟩ ∧ IsSysex7 ⟨0x30310300, 0, 0, 0⟩ ∧ formatCode ⟨0x30027E01, 0, 0, 0⟩ = 0 ∧
    formatCode ⟨0x30027D02, 0, 0, 0⟩ = 0 ∧ formatCode ⟨0x30127D02, 0, 0, 0⟩ = 1 ∧ formatCode ⟨0x30310300, 0, 0, 0⟩ = 3 := by decide +kernel
-- three messages at once, nested twice
example : (({} : Held7).calls [.feed ⟨0x30127D02, 0, 0, 0⟩ [], .feed ⟨0x30310300, 0, 0, 0⟩ [.feed ⟨0x30027E01, 0, 0, 0⟩ [.reset, .feed ⟨0x30027D02, 0, 0, 0⟩ []], .feed ⟨0x30027E01, 0, 0, 0⟩ []]]).2 =
    [[0x7D, 2, 3], [0x7E, 1], [0x7D, 2], [0x7E, 1]] := by decide +kernel

/-! ## 8 bit sysex -/

/-- C62: whatever calls of the collector its callbacks make, to any depth, there is no memory error and no failed assertion. The
messages delivered are exactly those of the reference machine. -/
theorem C62_calls_exactly8 (cs : List CollectorCall) :
    ∃ c, ({} : Collector8).performAll cs = .ok (c, ((({} : Held8).calls cs).2).map (fun m => (message8 m.1, m.2))) :=
  ⟨_, (calls8_exact cs {} (Nat.le_refl _)).1⟩

/-- Data put together from payloads of some of the packets. -/
def Built8 (h : List Packet) (d : List Byte) : Prop :=
  ∃ ps : List Packet, ps.Sublist h ∧ (∀ p ∈ ps, IsSysex8 p) ∧ d = (ps.map payload8).flatten

theorem Built8.mono {h h' : List Packet} {d : List Byte} (hd : Built8 h d) (hh : h.Sublist h') : Built8 h' d := by
  obtain ⟨ps, h1, h2⟩ := hd
  exact ⟨ps, h1.trans hh, h2⟩

theorem Built8.append {h : List Packet} {d : List Byte} (hd : Built8 h d) {p : Packet} (hp : IsSysex8 p) :
    Built8 (h ++ [p]) (d ++ payload8 p) := by
  obtain ⟨ps, h1, h2, rfl⟩ := hd
  refine ⟨ps ++ [p], h1.append_right [p], ?_, by simp⟩
  intro q hq
  rcases List.mem_append.1 hq with h | h
  · exact h2 q h
  · rw [List.mem_singleton.1 h]; exact hp

theorem built8_nil (h : List Packet) : Built8 h [] := ⟨[], List.nil_sublist _, by simp, rfl⟩

theorem built8_add (s : Held8) {h : List Packet} (hs : Built8 h s.held) {p : Packet} (hp : IsSysex8 p) (l : List Packet)
    (k : Bool) (r : Held8 → Held8 × List (List Byte × Byte))
    (hr : ∀ t : Held8, Built8 (h ++ [p]) t.held →
      Built8 (h ++ [p] ++ l) (r t).1.held ∧ ∀ m ∈ (r t).2, Built8 (h ++ [p] ++ l) m.1) :
    Built8 (h ++ [p] ++ l) (s.addR k (payload8 p) r).1.held ∧
    ∀ m ∈ (s.addR k (payload8 p) r).2, Built8 (h ++ [p] ++ l) m.1 := by
  have hsub : (h ++ [p]).Sublist (h ++ [p] ++ l) := List.sublist_append_left _ _
  have hsub' : h.Sublist (h ++ [p] ++ l) := (List.sublist_append_left _ _).trans hsub
  unfold Held8.addR
  dsimp only
  split
  · split
    · split
      · refine ⟨built8_nil _, ?_⟩
        intro m hm
        rcases List.mem_cons.1 hm with rfl | hm
        · exact (hs.append hp).mono hsub
        · exact (hr _ (hs.append hp)).2 m hm
      · exact ⟨built8_nil _, by simp⟩
    · exact ⟨(hs.append hp).mono hsub, by simp⟩
  · exact ⟨hs.mono hsub', by simp⟩

mutual
theorem built8_call : ∀ (o : CollectorCall) (s : Held8) (h : List Packet), Built8 h s.held →
    Built8 (h ++ packetsFed o) (s.call o).1.held ∧ ∀ m ∈ (s.call o).2, Built8 (h ++ packetsFed o) m.1
  | .feed p l, s, h, hs => by
    have ih := fun t ht => built8_calls l t (h ++ [p]) ht
    have hsub : h.Sublist (h ++ [p] ++ packetsFedAll l) :=
      (List.sublist_append_left _ _).trans (List.sublist_append_left _ _)
    simp only [Held8.call, packetsFed]
    rw [show h ++ p :: packetsFedAll l = h ++ [p] ++ packetsFedAll l by simp]
    by_cases hp : IsSysex8 p
    · rw [if_pos hp]
      unfold Held8.packetR
      split
      · refine built8_add _ ?_ hp _ _ _ ih
        show Built8 h (if s.running = true then s.cleared else s).held
        split
        · exact built8_nil _
        · exact hs
      · split
        · split
          · exact built8_add s hs hp _ _ _ ih
          · exact ⟨hs.mono hsub, by simp⟩
        · exact ⟨built8_nil _, by simp⟩
    · rw [if_neg hp]
      exact ⟨hs.mono hsub, by simp⟩
  | .setMaxSize k, s, h, hs => by
    simp only [Held8.call, packetsFed, List.append_nil]
    exact ⟨hs, by simp⟩
  | .reset, s, h, hs => by
    simp only [Held8.call, packetsFed, List.append_nil]
    exact ⟨built8_nil _, by simp⟩

theorem built8_calls : ∀ (l : List CollectorCall) (s : Held8) (h : List Packet), Built8 h s.held →
    Built8 (h ++ packetsFedAll l) (s.calls l).1.held ∧ ∀ m ∈ (s.calls l).2, Built8 (h ++ packetsFedAll l) m.1
  | [], s, h, hs => by
    simp only [Held8.calls, packetsFedAll, List.append_nil]
    exact ⟨hs, by simp⟩
  | o :: l, s, h, hs => by
    obtain ⟨h1, h2⟩ := built8_call o s h hs
    obtain ⟨h3, h4⟩ := built8_calls l _ _ h1
    simp only [Held8.calls, packetsFedAll]
    rw [← List.append_assoc]
    refine ⟨h3, ?_⟩
    intro m hm
    rcases List.mem_append.1 hm with hm | hm
    · exact (h2 m hm).mono (List.sublist_append_left _ _)
    · exact h4 m hm
end

/-- C62: every message delivered, also while callbacks use the collector, is put together from the payloads of sysex packets
that were fed, in the order in which they were fed. -/
theorem C62_nothing_invented8 (cs : List CollectorCall) :
    ∃ c out, ({} : Collector8).performAll cs = .ok (c, out) ∧ ∀ m ∈ out,
      ∃ ps : List Packet, ps.Sublist (packetsFedAll cs) ∧ (∀ p ∈ ps, IsSysex8 p) ∧ m.1 = message8 (ps.map payload8).flatten := by
  refine ⟨_, _, (calls8_exact cs {} (Nat.le_refl _)).1, ?_⟩
  intro m hm
  obtain ⟨d, hd, rfl⟩ := List.mem_map.1 hm
  obtain ⟨ps, h1, h2, h3⟩ := (built8_calls cs {} [] (built8_nil _)).2 d hd
  exact ⟨ps, h1, h2, by rw [h3]⟩

/-- C62: after a delivery the collector is like a new one with the same settings, whatever the callback did. -/
theorem C62_fresh_after_delivery8 (c c' : Collector8) (p : Packet) (inside : List CollectorCall) (m : Sysex × Byte) (out : List (Sysex × Byte))
    (h : c.perform (.feed p inside) = .ok (c', m :: out)) :
    c'.capacity ≤ 16384 ∧
    c' = { ({} : Collector8) with capacity := c'.capacity, maxSize := c'.maxSize, hasCallback := c'.hasCallback } := by
  simp only [Collector8.perform] at h
  rcases feedR8_spec c p (fun c => c.performAll inside) with ⟨c1, -, e⟩ | ⟨d, -, e, -⟩ | ⟨f, -, e⟩
  · rw [e] at h; simp at h
  · rw [e] at h
    cases hr : d.performAll inside with
    | error f => rw [hr] at h; cases h
    | ok v =>
      obtain ⟨v1, v2⟩ := v
      rw [hr, ok_bind] at h
      cases h
      refine ⟨?_, rfl⟩
      unfold Collector8.reset vecClearCap
      dsimp only
      split <;> omega
  · rw [e] at h; simp at h

example := C62_fresh_after_delivery8 ({} : Collector8) _ ⟨0x50040000, 0x7E010000, 0, 0⟩ [.feed ⟨0x50040000, 0x7D020000, 0, 0⟩ []] _ _ rfl

/-- C63: with callbacks that leave the collector alone, this is the collector of C21, C22 and C24. -/
theorem C63_plain8 (ps : List Packet) : ∀ c : Collector8, c.performAll (ps.map fun p => .feed p []) = c.feedAll ps := by
  induction ps with
  | nil => intro c; simp only [List.map_nil, Collector8.performAll, Collector8.feedAll]
  | cons p ps ih =>
    intro c
    simp only [List.map_cons, Collector8.performAll, Collector8.feedAll, Collector8.perform]
    rcases feedR8_spec c p (fun c => .ok (c, [])) with ⟨c1, e1, e⟩ | ⟨d, e1, e, -⟩ | ⟨f, e1, e⟩
    · rw [e, e1, ok_bind, ok_bind]
      dsimp only
      rw [ih]
    · rw [e, e1]
      simp only [ok_bind, pure_eq_ok]
      rw [ih]
    · rw [e, e1]; rfl

theorem resets8 (l : List CollectorCall) (hl : ∀ o ∈ l, o = .reset) : ∀ c : Collector8,
    ∃ c', c.performAll l = .ok (c', []) ∧ c.reset.afterAll l = .ok (c.reset, []) ∧ c'.reset = c.reset := by
  induction l with
  | nil =>
    intro c
    exact ⟨c, by simp only [Collector8.performAll], by simp only [Collector8.afterAll], rfl⟩
  | cons o l ih =>
    intro c
    obtain rfl := hl o (by simp)
    obtain ⟨c', e1, -, e3⟩ := ih (fun o ho => hl o (by simp [ho])) c.reset
    obtain ⟨-, -, e2, -⟩ := ih (fun o ho => hl o (by simp [ho])) c
    refine ⟨c', ?_, ?_, by rw [e3, reset8_reset]⟩
    · simp only [Collector8.performAll, Collector8.perform, ok_bind, e1]; rfl
    · simp only [Collector8.afterAll, Collector8.after, ok_bind, reset8_reset, e2]; rfl

/-- C63: a callback may reset the collector. The effect is that of a reset right after. -/
theorem C63_resets_inside8_partial (cs : List CollectorCall) (h : ∀ o ∈ cs, OnlyResets o) : ∀ c : Collector8,
    c.performAll cs = c.afterAll cs := by
  induction cs with
  | nil => intro c; simp only [Collector8.performAll, Collector8.afterAll]
  | cons o cs ih =>
    intro c
    have ih := ih (fun o ho => h o (by simp [ho]))
    have ho := h o (by simp)
    have : c.perform o = c.after o := by
      cases o with
      | setMaxSize k => simp only [Collector8.perform, Collector8.after]
      | reset => simp only [Collector8.perform, Collector8.after]
      | feed p l =>
        simp only [Collector8.perform, Collector8.after]
        rcases feedR8_spec c p (fun c => c.performAll l) with ⟨c1, e1, e⟩ | ⟨d, e1, e, -⟩ | ⟨f, e1, e⟩
        · rw [e, e1]; simp [pure_eq_ok]
        · obtain ⟨d', e3, e4, e5⟩ := resets8 l ho d
          rw [e, e1, e3, ok_bind, ok_bind]
          dsimp only
          rw [if_neg (by simp), e4, e5]; rfl
        · rw [e, e1]; rfl
    simp only [Collector8.performAll, Collector8.afterAll, this]
    cases c.after o with
    | error f => rfl
    | ok v => simp only [ok_bind, ih]

example := C63_resets_inside8_partial [.feed ⟨0x50140000, 0x7D020000, 0, 0⟩ [], .feed ⟨0x50320003, 0, 0, 0⟩ [.reset, .reset], .setMaxSize 9] (by simp [OnlyResets])

/-- C63: a callback that begins with a reset of the collector may then use it in any way. The effect is that of the same calls
right after, followed by one more reset; what is begun by the callback and is not complete when it returns is lost. -/
theorem C63_reset_first8_partial (c c1 : Collector8) (p : Packet) (inside : List CollectorCall) (m : Sysex × Byte)
    (h : c.feed p = .ok (c1, [m])) :
    c.perform (.feed p (.reset :: inside)) = do
      let (c2, out) ← c1.performAll inside
      return (c2.reset, m :: out) := by
  simp only [Collector8.perform]
  rcases feedR8_spec c p (fun c => c.performAll (.reset :: inside)) with ⟨c1, e1, e⟩ | ⟨d, e1, e, -⟩ | ⟨f, e1, e⟩
  · rw [e1] at h; simp at h
  · rw [e1] at h
    cases h
    rw [e]
    simp only [Collector8.performAll, Collector8.perform, ok_bind]
    cases Collector8.performAll d.reset inside <;> rfl
  · rw [e1] at h; simp at h

example := C63_reset_first8_partial ({} : Collector8) _ ⟨0x50040000, 0x7E010000, 0, 0⟩ [.feed ⟨0x50040000, 0x7D020000, 0, 0⟩ []] _ rfl

/-- C63: in the callback for a message that ends with an end packet, another message may be fed if it begins with a complete or a
start packet; then anything may follow. The effect is that of the same calls right after, followed by a reset. -/
theorem C63_end_packet8_partial (c c1 : Collector8) (p q : Packet) (l inside : List CollectorCall) (m : Sysex × Byte)
    (h : c.feed p = .ok (c1, [m])) (hp : IsSysex8 p) (hend : formatCode p = 3) (hq : IsSysex8 q) (hfirst : formatCode q ≤ 1) :
    c.perform (.feed p (.feed q l :: inside)) = do
      let (c2, out) ← c1.performAll (.feed q l :: inside)
      return (c2.reset, m :: out) := by
  simp only [Collector8.perform]
  have hnot : ¬ (sysex8Format p = .complete ∨ sysex8Format p = .start) := by
    rw [(format8_iff p hp).1, (format8_iff p hp).2.1]; omega
  have hqs : sysex8Format q = .complete ∨ sysex8Format q = .start := by
    rw [(format8_iff q hq).1, (format8_iff q hq).2.1]; omega
  have hqb : isSysex8Packet q = true := (C16_is_sysex8_packet_iff q).2 hq
  rcases feedR8_spec c p (fun c => c.performAll (.feed q l :: inside)) with ⟨c1, e1, e⟩ | ⟨d, e1, e, hst⟩ | ⟨f, e1, e⟩
  · rw [e1] at h; simp at h
  · rw [e1] at h
    cases h
    rw [e]
    have hfeed : d.feedR q (fun c => c.performAll l) = d.reset.feedR q (fun c => c.performAll l) := by
      have hv : sysex8View q = .ok q := by unfold sysex8View; rw [assert_ok hqb]; rfl
      unfold Collector8.feedR
      rw [hv, hst hnot]
      cases hs : sysex8StreamId q with
      | error f => simp only [hqb, Bool.not_true, Bool.false_eq_true, if_false, ok_bind, hs, error_bind]
      | ok st =>
        simp only [hqb, Bool.not_true, Bool.false_eq_true, if_false, ok_bind, if_pos hqs, hs]
        rw [if_pos (by decide), if_neg (show ¬ d.reset.state ≠ .start from fun h => h rfl)]
    simp only [Collector8.performAll, Collector8.perform, hfeed]
  · rw [e1] at h; simp at h

example := C63_end_packet8_partial (match ({} : Collector8).feed ⟨0x50140000, 0x7D020000, 0, 0⟩ with | .ok r => r.1 | .error _ => {}) _ ⟨0x50320003, 0, 0, 0⟩ ⟨0x50040000, 0x7E010000, 0, 0⟩
  [.setMaxSize 9] [.reset] _ rfl (by decide) (by decide) (by decide) (by decide)

theorem delivered8 (cs : List CollectorCall) : (({} : Collector8).performAll cs).map Prod.snd =
    .ok (((({} : Held8).calls cs).2).map (fun m => (message8 m.1, m.2))) := by
  have e := (calls8_exact cs {} (Nat.le_refl _)).1
  dsimp only at e
  rw [show ({} : Collector8) = conc8 {} from rfl, e]; rfl

/-- C63 is false: in the callback for a message that is one complete packet, the message is still held, and another complete
packet is appended to it. -/
theorem C63_complete_packets_merge8 (p q : Packet) (hp : IsSysex8 p) (hq : IsSysex8 q) (h0 : formatCode p = 0) (h1 : formatCode q = 0) :
    (({} : Collector8).performAll [.feed p [.feed q []]]).map Prod.snd =
      .ok [(message8 (payload8 p), stream8 p), (message8 (payload8 p ++ payload8 q), stream8 q)] ∧
    (({} : Collector8).afterAll [.feed p [.feed q []]]).map Prod.snd = .ok [(message8 (payload8 p), stream8 p), (message8 (payload8 q), stream8 q)] := by
  constructor
  · rw [delivered8]
    simp [Held8.calls, Held8.call, if_pos hp, if_pos hq, h0, h1, Held8.packetR, Held8.addR, Held8.cleared, room]
  · obtain ⟨e1, g1⟩ := packet8_exact {} (Nat.le_refl _) p hp
    obtain ⟨e2, g2⟩ := packet8_exact _ g1 q hq
    rw [show conc8 {} = ({} : Collector8) from rfl] at e1
    simp only [Collector8.afterAll, Collector8.after]
    rw [e1, ok_bind]
    dsimp only
    rw [if_neg (by simp [h0, Held8.packet, Held8.add, room]), e2, ok_bind]
    simp [h0, h1, Held8.packet, Held8.add, Held8.cleared, room, ok_bind, pure_eq_ok, Except.map]

example := C63_complete_packets_merge8 ⟨0x50040000, 0x7E010000, 0, 0⟩ ⟨0x50040000, 0x7D020000, 0, 0⟩ (by decide) (by decide) (by decide) (by decide)

/-- C63 is false: a message that the callback begins is lost, even if the rest of it follows. -/
theorem C63_unfinished_lost8 (p q r : Packet) (hp : IsSysex8 p) (hq : IsSysex8 q) (hr : IsSysex8 r) (h0 : formatCode p = 0)
    (h1 : formatCode q = 1) (h3 : formatCode r = 3) (hs : stream8 r = stream8 q) :
    (({} : Collector8).performAll [.feed p [.feed q []], .feed r []]).map Prod.snd = .ok [(message8 (payload8 p), stream8 p)] ∧
    (({} : Collector8).afterAll [.feed p [.feed q []], .feed r []]).map Prod.snd =
      .ok [(message8 (payload8 p), stream8 p), (message8 (payload8 q ++ payload8 r), stream8 q)] := by
  constructor
  · rw [delivered8]
    simp [Held8.calls, Held8.call, if_pos hp, if_pos hq, if_pos hr, h0, h1, h3, Held8.packetR, Held8.addR, Held8.cleared, room]
  · obtain ⟨e1, g1⟩ := packet8_exact {} (Nat.le_refl _) p hp
    obtain ⟨e2, g2⟩ := packet8_exact _ g1 q hq
    obtain ⟨e3, g3⟩ := packet8_exact _ g2 r hr
    rw [show conc8 {} = ({} : Collector8) from rfl] at e1
    simp only [Collector8.afterAll, Collector8.after]
    rw [e1, ok_bind]
    dsimp only
    rw [if_neg (by simp [h0, Held8.packet, Held8.add, room]), e2, ok_bind]
    dsimp only
    rw [if_pos (by simp [h0, h1, Held8.packet, Held8.add, Held8.cleared, room])]
    simp only [ok_bind, pure_eq_ok]
    rw [e3, ok_bind]
    simp [h0, h1, h3, hs, Held8.packet, Held8.add, Held8.cleared, room, ok_bind, pure_eq_ok, Except.map]

-- the hypotheses are met: two complete packets, and a complete one followed by a message of two packets
/-- C63 is false as a whole: not for all calls of a collector for 8 bit sysex, which its callbacks may make too, are the messages delivered those of the
same calls made right after. -/
theorem C63_false8 : ¬ ∀ cs : List CollectorCall,
    (({} : Collector8).performAll cs).map Prod.snd = (({} : Collector8).afterAll cs).map Prod.snd := by
  intro h
  have h := h [.feed ⟨0x50040000, 0x7E010000, 0, 0⟩ [.feed ⟨0x50040000, 0x7D020000, 0, 0⟩ []]]
  obtain ⟨h1, h2⟩ := C63_complete_packets_merge8 ⟨0x50040000, 0x7E010000, 0, 0⟩ ⟨0x50040000, 0x7D020000, 0, 0⟩ (by decide +kernel) (by decide +kernel)
    (by decide +kernel) (by decide +kernel)
  rw [h1, h2] at h
  revert h
  decide +kernel

example : IsSysex8 ⟨0x50040000, 0x7E010000, 0, 0⟩ ∧ IsSysex8 ⟨0x50040000, 0x7D020000, 0, 0⟩ ∧ IsSysex8 ⟨0x50140000, 0x7D020000, 0, 0⟩ ∧ IsSysex8 ⟨0x50320003, 0, 0, 0⟩ ∧ formatCode ⟨0x50040000, 0x7E010000, 0, 0⟩ = 0 ∧
    formatCode ⟨0x50040000, 0x7D020000, 0, 0⟩ = 0 ∧ formatCode ⟨0x50140000, 0x7D020000, 0, 0⟩ = 1 ∧ formatCode ⟨0x50320003, 0, 0, 0⟩ = 3 := by decide +kernel
-- three messages at once, nested twice
example : (({} : Held8).calls [.feed ⟨0x50140000, 0x7D020000, 0, 0⟩ [], .feed ⟨0x50320003, 0, 0, 0⟩ [.feed ⟨0x50040000, 0x7E010000, 0, 0⟩ [.reset, .feed ⟨0x50040000, 0x7D020000, 0, 0⟩ []], .feed ⟨0x50040000, 0x7E010000, 0, 0⟩ []]]).2 =
    [([0, 0x7D, 2, 3], 0), ([0, 0x7E, 1], 0), ([0, 0x7D, 2], 0), ([0, 0x7E, 1], 0)] := by decide +kernel

end Midi
