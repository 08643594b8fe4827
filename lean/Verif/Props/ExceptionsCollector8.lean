import Verif.Props.ExceptionsCollector

/-!
# C67, C68: exceptions and the collector of 8 bit sysex
-/

namespace Midi
open Spec

/-- C67: whatever goes wrong in a history of calls, there is no memory error and no failed assertion. The messages delivered are
exactly those of the reference machine. -/
theorem C67_tries_exactly8 (os : List CollectorTry) :
    ∃ c, ({} : Collector8).tryAll os = .ok (c, ((({} : Held8).tries os).2).map fun m => (message8 m.1, m.2)) :=
  ⟨_, (tries8_exact os {} (Nat.le_refl _)).1⟩

theorem tryCollectLoop8_calm (p : Packet) (k : Nat) : ∀ (c : Collector8) (b : Nat),
    c.tryCollectLoop p false b k = (c.collectLoop p b k).map fun c => (c, false) := by
  induction k with
  | zero => intro c b; rfl
  | succ k ih =>
    intro c b
    unfold Collector8.tryCollectLoop Collector8.collectLoop
    cases hb : sysex8PayloadByte p b with
    | error f => rfl
    | ok v => rw [ok_bind, ok_bind, if_neg (by simp)]; exact ih _ _

theorem tryFeedPayload8_calm (c : Collector8) (m : Packet) :
    c.tryFeedPayload m {} = (c.feedPayload m).map fun r => (r.1, r.2, false) := by
  unfold Collector8.tryFeedPayload Collector8.feedPayload
  rw [if_neg (by simp)]
  dsimp only
  split
  · rfl
  · rw [tryCollectLoop8_calm]
    cases Collector8.collectLoop { c with capacity := (ensureCapacity c.capacity c.maxSize c.sysex.data.length (sysex8PayloadSize m)).1 }
      m 0 (sysex8PayloadSize m) with
    | error f => rfl
    | ok d =>
      simp only [Except.map, ok_bind, Bool.false_eq_true, if_false]
      split
      · cases d.hasCallback <;> rfl
      · rfl

theorem tryFeed8_calm (c : Collector8) (p : Packet) : c.tryFeed p {} = (c.feed p).map fun r => (r.1, r.2, false) := by
  unfold Collector8.tryFeed Collector8.feed
  split
  · rfl
  · cases sysex8View p with
    | error f => rfl
    | ok m =>
      simp only [ok_bind]
      cases sysex8StreamId m with
      | error f => rfl
      | ok i =>
        simp only [ok_bind]
        split
        · exact tryFeedPayload8_calm _ _
        · split
          · rfl
          · split
            · rfl
            · exact tryFeedPayload8_calm _ _

/-- C67: if nothing goes wrong, this is the collector of C21, C22 and C24. -/
theorem C67_plain8 (os : List CollectorTry) (h : ∀ o ∈ os, Calm o) : ∀ c : Collector8, c.tryAll os = c.run (untroubled os) := by
  induction os with
  | nil => intro c; rfl
  | cons o os ih =>
    intro c
    have ho := h o (by simp)
    have ih := ih fun o ho => h o (by simp [ho])
    cases o with
    | feed p t =>
      obtain rfl : t = {} := ho
      rw [Collector8.tryAll, Collector8.tryOne, tryFeed8_calm, untroubled, Collector8.run]
      simp only [Collector8.feedAll]
      cases c.feed p with
      | error f => rfl
      | ok v => simp only [Except.map, ok_bind, pure_eq_ok, List.append_nil, ih]
    | setMaxSize n m =>
      obtain rfl : m = false := ho
      rw [Collector8.tryAll, Collector8.tryOne, ok_bind, untroubled, Collector8.run]
      have e : (c.trySetMaxSize n false).1 = c.setMaxSize n := by
        unfold Collector8.trySetMaxSize Collector8.setMaxSize
        dsimp only
        split <;> rfl
      dsimp only
      rw [e, ih]
      cases (c.setMaxSize n).run (untroubled os) <;> rfl
    | setCallback b =>
      rw [Collector8.tryAll, Collector8.tryOne, ok_bind, untroubled, Collector8.run]
      dsimp only
      rw [ih]
      cases (c.setCallback b).run (untroubled os) <;> rfl
    | reset =>
      rw [Collector8.tryAll, Collector8.tryOne, ok_bind, untroubled, Collector8.run]
      dsimp only
      rw [ih]
      cases c.reset.run (untroubled os) <;> rfl

example := C67_plain8 [.feed ⟨0x50050000, 0x7E010200, 0, 0⟩ {}, .reset, .feed ⟨0x50050000, 0x7E010200, 0, 0⟩ {}] (by simp [Calm])

theorem built8_tryAdd (s : Held8) {h : List Packet} (hs : Built8 h s.held) {p : Packet} (hp : IsSysex8 p) (k : Bool) (t : Trouble) :
    Built8 (h ++ [p]) (s.tryAdd k (payload8 p) t).1.held ∧ ∀ m ∈ (s.tryAdd k (payload8 p) t).2.1, Built8 (h ++ [p]) m.1 := by
  have hsub : h.Sublist (h ++ [p]) := List.sublist_append_left _ _
  unfold Held8.tryAdd Held8.add
  dsimp only
  split
  · exact ⟨hs.mono hsub, by simp⟩
  · split
    · exact ⟨hs.append hp, by simpa using hs.append hp⟩
    · split
      · split
        · refine ⟨built8_nil _, ?_⟩
          intro m hm
          split at hm
          · rw [List.mem_singleton.1 hm]; exact hs.append hp
          · simp at hm
        · exact ⟨hs.append hp, by simp⟩
      · exact ⟨hs.mono hsub, by simp⟩

theorem built8_tries (os : List CollectorTry) : ∀ (s : Held8) (h : List Packet), Built8 h s.held →
    ∀ m ∈ (s.tries os).2, Built8 (h ++ fedBy os) m.1 := by
  induction os with
  | nil => intro s h _ m hm; simp [Held8.tries] at hm
  | cons o os ih =>
    intro s h hs m hm
    rw [Held8.tries] at hm
    cases o with
    | feed p t =>
      rw [fedBy, show h ++ p :: fedBy os = h ++ [p] ++ fedBy os by simp]
      have key : Built8 (h ++ [p]) (s.tryOne (.feed p t)).1.held ∧ ∀ m ∈ (s.tryOne (.feed p t)).2.1, Built8 (h ++ [p]) m.1 := by
        rw [Held8.tryOne]
        by_cases hp : IsSysex8 p
        · rw [if_pos hp, Held8.tryPacket]
          split
          · refine built8_tryAdd _ ?_ hp _ _
            show Built8 h (if s.running = true then s.cleared else s).held
            split
            · exact built8_nil _
            · exact hs
          · split
            · split
              · exact built8_tryAdd s hs hp _ _
              · exact ⟨hs.mono (List.sublist_append_left _ _), by simp⟩
            · exact ⟨built8_nil _, by simp⟩
        · rw [if_neg hp]
          exact ⟨hs.mono (List.sublist_append_left _ _), by simp⟩
      rcases List.mem_append.1 hm with hm | hm
      · exact (key.2 m hm).mono (List.sublist_append_left _ _)
      · exact ih _ _ key.1 m hm
    | setMaxSize n b =>
      have e : (s.tryOne (.setMaxSize n b)).2.1 = [] ∧ (s.tryOne (.setMaxSize n b)).1.held = s.held := by
        rw [Held8.tryOne]; split <;> exact ⟨rfl, rfl⟩
      rcases List.mem_append.1 hm with hm | hm
      · rw [e.1] at hm; simp at hm
      · exact ih _ h (by rw [e.2]; exact hs) m hm
    | setCallback b =>
      rcases List.mem_append.1 hm with hm | hm
      · simp [Held8.tryOne] at hm
      · exact ih { s with callback := b } h hs m hm
    | reset =>
      rcases List.mem_append.1 hm with hm | hm
      · simp [Held8.tryOne] at hm
      · exact ih _ h (built8_nil _) m hm

/-- C67: every message delivered, whatever went wrong before, is put together from the payloads of sysex packets that were fed,
in the order in which they were fed. -/
theorem C67_nothing_invented8 (os : List CollectorTry) :
    ∃ c out, ({} : Collector8).tryAll os = .ok (c, out) ∧ ∀ m ∈ out,
      ∃ ps : List Packet, ps.Sublist (fedBy os) ∧ (∀ p ∈ ps, IsSysex8 p) ∧ m.1 = message8 (ps.map payload8).flatten := by
  refine ⟨_, _, (tries8_exact os {} (Nat.le_refl _)).1, ?_⟩
  intro m hm
  obtain ⟨d, hd, rfl⟩ := List.mem_map.1 hm
  obtain ⟨ps, h1, h2, h3⟩ := built8_tries os {} [] (built8_nil _) d hd
  exact ⟨ps, h1, h2, by rw [h3]⟩

/-- C67: an allocation that fails leaves the collector as it was before the packet; only a message that was running is given up
if the packet begins another one, and the stream id of such a packet is kept. -/
theorem C67_failed_allocation8 (os : List CollectorTry) (c c' : Collector8) (out ms : List (Sysex × Byte)) (p : Packet) (t : Trouble)
    (h : ({} : Collector8).tryAll os = .ok (c, out)) (ht : t.callback = false) (h' : c.tryFeed p t = .ok (c', ms, true)) :
    ms = [] ∧ c' = if formatCode p ≤ 1 then { (if c.state ≠ .start then c.reset else c) with streamId := stream8 p } else c := by
  obtain ⟨e, hg⟩ := tries8_exact os {} (Nat.le_refl _)
  rw [show conc8 {} = ({} : Collector8) from rfl, h] at e
  cases e
  generalize (({} : Held8).tries os).1 = s at hg h' ⊢
  by_cases hp : IsSysex8 p
  · rw [(tryPacket8_exact s hg p hp t).1] at h'
    have key : ∀ (s : Held8) k, (s.tryAdd k (payload8 p) t).2.2 = true → s.tryAdd k (payload8 p) t = (s, [], true) := by
      intro s k hk
      unfold Held8.tryAdd at hk ⊢
      dsimp only at hk ⊢
      split at hk
      · next hc => rw [if_pos hc]
      · rw [if_neg (by simp [ht])] at hk; simp at hk
    have h3 := congrArg (fun x => (Except.map (fun y => y.2.2) x)) h'
    simp only [Except.map, Except.ok.injEq] at h3
    have hrun : (conc8 s).state ≠ .start ↔ s.running = true := by
      cases hr : s.running <;> simp [conc8, hr]
    unfold Held8.tryPacket at h' h3
    by_cases hlow : formatCode p = 0 ∨ formatCode p = 1
    · rw [if_pos hlow] at h' h3
      rw [key _ _ h3] at h'
      cases h'
      refine ⟨rfl, ?_⟩
      rw [if_pos (show formatCode p ≤ 1 by omega)]
      by_cases hr : s.running = true
      · rw [if_pos hr, if_pos (hrun.2 hr), conc8_reset s (conc8 s) rfl rfl rfl]; rfl
      · rw [if_neg hr, if_neg (fun x => hr (hrun.1 x))]; rfl
    · rw [if_neg hlow] at h' h3
      rw [if_neg (by omega)]
      split at h'
      · next hr =>
        rw [if_pos hr] at h3
        split at h'
        · next hi =>
          rw [if_pos hi] at h3
          rw [key _ _ h3] at h'
          cases h'
          exact ⟨rfl, rfl⟩
        · next hi => rw [if_neg hi] at h3; simp at h3
      · next hr => rw [if_neg hr] at h3; simp at h3
  · have hb : isSysex8Packet p = false := by
      rw [← Bool.not_eq_true, C16_is_sysex8_packet_iff]; exact hp
    unfold Collector8.tryFeed at h'
    simp only [hb, Bool.not_false, if_true, pure_eq_ok] at h'
    cases h'

example := C67_failed_allocation8 [.feed ⟨0x50330010, 0x11000000, 0, 0⟩ {}] _ _ _ _ ⟨0x501E0000, 0x7E010203, 0x04050607, 0x08090A0B⟩
  { memory := true } rfl rfl rfl

/-- Without limit, what is delivered depends on what is held only. -/
theorem packets8_unlimited (l : List Item8) : ∀ (s s' : Held8), s.limit = 0 → s'.limit = 0 → s.callback = s'.callback →
    s.running = s'.running → s.held = s'.held → s.stream = s'.stream → (s.packets l).2 = (s'.packets l).2 := by
  induction l with
  | nil => intro _ _ _ _ _ _ _ _; rfl
  | cons x l ih =>
    obtain ⟨f, i, d⟩ := x
    intro s s' h1 h2 h3 h4 h5 h6
    have hadd : ∀ (s s' : Held8) k, s.limit = 0 → s'.limit = 0 → s.callback = s'.callback → s.running = s'.running →
        s.held = s'.held → s.stream = s'.stream → (s.add k d).2 ++ ((s.add k d).1.packets l).2 = (s'.add k d).2 ++ ((s'.add k d).1.packets l).2 := by
      intro s s' k h1 h2 h3 h4 h5 h6
      unfold Held8.add room
      simp only [h1, h2, true_or, decide_true, if_true]
      cases k
      · simp only [Bool.false_eq_true, if_false]
        rw [ih _ _ _ _ _ _ _ _] <;> simp [h1, h2, h3, h5, h6]
      · simp only [if_true]
        rw [h3, h5, h6, ih _ _ _ _ _ _ _ _] <;> simp [Held8.cleared, h1, h2, h3]
    show (s.packet f i d).2 ++ ((s.packet f i d).1.packets l).2 = (s'.packet f i d).2 ++ ((s'.packet f i d).1.packets l).2
    unfold Held8.packet
    split
    · rw [h4]
      split
      · exact hadd { s.cleared with stream := i } { s'.cleared with stream := i } _ h1 h2 h3 rfl rfl rfl
      · exact hadd { s with stream := i } { s' with stream := i } _ h1 h2 h3 h4 h5 rfl
    · rw [h4, h6]
      split
      · split
        · exact hadd _ _ _ h1 h2 h3 h4 h5 h6
        · exact ih s s' h1 h2 h3 h4 h5 h6
      · exact ih s.cleared s'.cleared h1 h2 h3 rfl rfl rfl

/-- C67: after a reset, a collector without limit delivers the same as a new one, whatever happened before. -/
theorem C67_reset8 (os : List CollectorTry) (c : Collector8) (out : List (Sysex × Byte)) (h : ({} : Collector8).tryAll os = .ok (c, out))
    (hl : c.maxSize = 0) (hcb : c.hasCallback = true) (ps : List Packet) :
    ∃ c1 c2 ms, c.reset.feedAll ps = .ok (c1, ms) ∧ ({} : Collector8).feedAll ps = .ok (c2, ms) := by
  obtain ⟨e, -⟩ := tries8_exact os {} (Nat.le_refl _)
  rw [show conc8 {} = ({} : Collector8) from rfl, h] at e
  cases e
  have h1 := (packets8_exact ps _ (good8_cleared (({} : Held8).tries os).1)).1
  have h2 := (packets8_exact ps ({} : Held8) (Nat.le_refl _)).1
  rw [packets8_unlimited (items8 ps) (({} : Held8).tries os).1.cleared ({} : Held8) hl rfl hcb rfl rfl rfl] at h1
  rw [conc8_reset _ (conc8 _) rfl rfl rfl]
  exact ⟨_, _, _, h1, h2⟩

example := C67_reset8 [.feed ⟨0x50050000, 0x7E010200, 0, 0⟩ { callback := true }] _ _ rfl rfl rfl [⟨0x50050000, 0x7E010200, 0, 0⟩]

/-- A message without limit: what is delivered for its packets. -/
theorem framed8 (ps : List Packet) (i : Byte) (hps : ∀ p ∈ ps, IsSysex8 p ∧ stream8 p = i) (hf : Framed (ps.map formatCode)) (s : Held8)
    (hl : s.limit = 0)
    (hcb : s.callback = true) :
    (s.packets (items8 ps)).2 = [((if s.running then [] else s.held) ++ (ps.map payload8).flatten, i)] := by
  have hmid : ∀ (ps : List Packet) (n : Nat), (∀ p ∈ ps, IsSysex8 p ∧ stream8 p = i) → ps.map formatCode = List.replicate n 2 ++ [3] →
      ∀ s : Held8, s.limit = 0 → s.callback = true → s.running = true →
      s.stream = i → (s.packets (items8 ps)).2 = [(s.held ++ (ps.map payload8).flatten, i)] := by
    intro ps
    induction ps with
    | nil => intro n _ h; simp at h
    | cons p ps ih =>
      intro n hps h s h1 h2 h3 h4
      have hi := (hps p (by simp)).2
      rw [items8_cons_pos ps (hps p (by simp)).1]
      simp only [Held8.packets]
      cases n with
      | zero =>
        obtain ⟨hp, hn⟩ : formatCode p = 3 ∧ ps = [] := by simpa using h
        subst hn
        simp [Held8.packet, hp, h3, Held8.add, room, h1, h2, items8, Held8.packets, hi, h4]
      | succ n =>
        obtain ⟨hp, hn⟩ : formatCode p = 2 ∧ ps.map formatCode = List.replicate n 2 ++ [3] := by
          simpa [List.replicate_succ] using h
        have e : s.packet (formatCode p) (stream8 p) (payload8 p) =
            ({ s with storage := grown s.limit s.storage ((message8 s.held).data.length + (payload8 p).length), running := true,
                      held := s.held ++ payload8 p }, []) := by
          simp [Held8.packet, hp, h3, Held8.add, room, h1, hi, h4]
        rw [e]
        dsimp only
        rw [ih n (fun p hp => hps p (by simp [hp])) hn _ (by exact h1) (by exact h2) rfl (by exact h4)]
        simp
  rcases hf with hf | ⟨n, hf⟩
  · obtain ⟨p, rfl, hp⟩ := List.map_eq_singleton_iff.1 hf
    have hi := (hps p (by simp)).2
    rw [items8_cons_pos [] (hps p (by simp)).1]
    simp only [Held8.packets, Held8.packet, hp, hi]
    by_cases hr : s.running = true
    · simp [hr, Held8.add, Held8.cleared, room, hl, hcb, items8, Held8.packets]
    · simp [hr, Held8.add, room, hl, hcb, items8, Held8.packets]
  · match ps, hf with
    | p :: ps, hf =>
      obtain ⟨hp, hn⟩ : formatCode p = 1 ∧ ps.map formatCode = List.replicate n 2 ++ [3] := by simpa using hf
      have hi := (hps p (by simp)).2
      rw [items8_cons_pos ps (hps p (by simp)).1]
      simp only [Held8.packets, Held8.packet, hp, hi]
      by_cases hr : s.running = true
      · simp only [hr, if_true, Held8.add, Held8.cleared, room, hl, true_or, decide_true, or_true]
        simp only [show ¬ (1 : Nat) = 0 by decide, decide_false, Bool.false_eq_true, if_false, List.nil_append]
        refine (hmid ps n (fun p hp => hps p (by simp [hp])) hn _ (by rfl) (by exact hcb) (by rfl) (by rfl)).trans ?_
        simp
      · simp only [hr, Bool.false_eq_true, if_false, Held8.add, room, hl, true_or, decide_true, or_true, if_true]
        simp only [show ¬ (1 : Nat) = 0 by decide, decide_false, Bool.false_eq_true, if_false, List.nil_append]
        refine (hmid ps n (fun p hp => hps p (by simp [hp])) hn _ (by rfl) (by exact hcb) (by rfl) (by rfl)).trans ?_
        simp

/-- C68, exactly: what a collector without limit delivers for the packets of a message, whatever went wrong before. If a message is
held but not running, it is put in front. -/
theorem C68_next_exactly8 (os : List CollectorTry) (ps : List Packet) (i : Byte) (hps : ∀ p ∈ ps, IsSysex8 p ∧ stream8 p = i) (hf : Framed (ps.map formatCode))
    (c : Collector8) (out : List (Sysex × Byte)) (h : ({} : Collector8).tryAll os = .ok (c, out)) (hl : c.maxSize = 0)
    (hcb : c.hasCallback = true) :
    ∃ c', c.feedAll ps = .ok (c', [(message8 ((if (({} : Held8).tries os).1.running then [] else (({} : Held8).tries os).1.held) ++
      (ps.map payload8).flatten), i)]) := by
  obtain ⟨e, hg⟩ := tries8_exact os {} (Nat.le_refl _)
  rw [show conc8 {} = ({} : Collector8) from rfl, h] at e
  cases e
  have h1 := (packets8_exact ps _ hg).1
  rw [framed8 ps i hps hf _ hl hcb] at h1
  exact ⟨_, h1⟩

example := C68_next_exactly8 [.feed ⟨0x50050000, 0x7E010200, 0, 0⟩ { callback := true }] [⟨0x50050700, 0x7E010200, 0, 0⟩] 7 (by decide)
  (Or.inl (by decide)) _ _ rfl rfl rfl

/-- Nothing is held, or the message is running. -/
def Tidy8 (s : Held8) : Prop := s.limit = 0 ∧ (s.running = false → s.held = [])

theorem tidy8_add (s : Held8) (hl : s.limit = 0) (k : Bool) (d : List Byte) : Tidy8 (s.add k d).1 := by
  unfold Held8.add room
  dsimp only
  rw [if_pos (by simp [hl])]
  cases k
  · exact ⟨hl, fun h => nomatch h⟩
  · exact ⟨hl, fun _ => rfl⟩

theorem tidy8_tries (os : List CollectorTry) (hlim : ∀ n m, .setMaxSize n m ∈ os → n = 0)
    (hc : ∀ p t, .feed p t ∈ os → formatCode p = 0 → t.callback = false) : ∀ s : Held8, Tidy8 s → Tidy8 (s.tries os).1 := by
  induction os with
  | nil => intro s h; exact h
  | cons o os ih =>
    intro s h
    rw [Held8.tries]
    refine ih (fun n m hm => hlim n m (by simp [hm])) (fun p t hm => hc p t (by simp [hm])) _ ?_
    cases o with
    | feed p t =>
      have hadd : ∀ (s : Held8) (k : Bool) (hk : k = true → t.callback = true → s.running = true) (_ : Tidy8 s),
          Tidy8 (s.tryAdd k (payload8 p) t).1 := by
        intro s k hk hs
        unfold Held8.tryAdd
        dsimp only
        split
        · exact hs
        · split
          · next h1 h2 => exact ⟨hs.1, fun hr => by rw [hk h2.2.1 h2.1] at hr; cases hr⟩
          · exact tidy8_add s hs.1 k _
      show Tidy8 (s.tryOne (.feed p t)).1
      rw [Held8.tryOne]
      split
      · rw [Held8.tryPacket]
        split
        · refine hadd _ _ ?_ ?_
          · intro hk ht
            rw [hc p t (by simp) (by simpa using hk)] at ht
            cases ht
          · split
            · exact ⟨h.1, fun _ => rfl⟩
            · exact h
        · split
          · next hr =>
            split
            · exact hadd s _ (fun _ _ => hr) h
            · exact h
          · exact ⟨h.1, fun _ => rfl⟩
      · exact h
    | setMaxSize n m =>
      have hn := hlim n m (by simp)
      show Tidy8 (s.tryOne (.setMaxSize n m)).1
      rw [Held8.tryOne]
      split <;> exact ⟨hn, h.2⟩
    | setCallback b => exact h
    | reset => exact ⟨h.1, fun _ => rfl⟩

/-- C68, without a limit, if no callback throws for a message that is one complete packet: whatever else went wrong before, the
next message is delivered as it is. -/
theorem C68_next_message8_partial (os : List CollectorTry) (hlim : ∀ n m, .setMaxSize n m ∈ os → n = 0)
    (hc : ∀ p t, .feed p t ∈ os → formatCode p = 0 → t.callback = false)
    (ps : List Packet) (i : Byte) (hps : ∀ p ∈ ps, IsSysex8 p ∧ stream8 p = i) (hf : Framed (ps.map formatCode))
    (c : Collector8) (out : List (Sysex × Byte)) (h : ({} : Collector8).tryAll os = .ok (c, out)) (hcb : c.hasCallback = true) :
    ∃ c', c.feedAll ps = .ok (c', [(message8 (ps.map payload8).flatten, i)]) := by
  have ht := tidy8_tries os hlim hc {} ⟨rfl, fun _ => rfl⟩
  obtain ⟨e, hg⟩ := tries8_exact os {} (Nat.le_refl _)
  rw [show conc8 {} = ({} : Collector8) from rfl, h] at e
  cases e
  have h1 := (packets8_exact ps _ hg).1
  rw [framed8 ps i hps hf _ ht.1 hcb] at h1
  have : (if (({} : Held8).tries os).1.running = true then [] else (({} : Held8).tries os).1.held) = [] := by
    split
    · rfl
    · next hr => exact ht.2 (by simpa using hr)
  rw [this] at h1
  exact ⟨_, h1⟩

example := C68_next_message8_partial [.feed ⟨0x50050000, 0x7E010200, 0, 0⟩ { memory := true }] (by simp) (by simp)
  [⟨0x50050700, 0x7E010200, 0, 0⟩] 7 (by decide) (Or.inl (by decide)) _ _ rfl rfl

theorem tried8 (os : List CollectorTry) : (({} : Collector8).tryAll os).map Prod.snd =
    .ok (((({} : Held8).tries os).2).map fun m => (message8 m.1, m.2)) := by
  have e := (tries8_exact os {} (Nat.le_refl _)).1
  rw [show ({} : Collector8) = conc8 {} from rfl, e]; rfl

/-- C68 is false: if the callback throws for a message that is one complete packet, this message is put in front of the next
one. -/
theorem C68_message_kept8 (p q : Packet) (hp : IsSysex8 p) (hq : IsSysex8 q) (h0 : formatCode p = 0) (h1 : formatCode q = 0) :
    (({} : Collector8).tryAll [.feed p { callback := true }, .feed q {}]).map Prod.snd =
      .ok [(message8 (payload8 p), stream8 p), (message8 (payload8 p ++ payload8 q), stream8 q)] := by
  rw [tried8]
  simp [Held8.tries, Held8.tryOne, if_pos hp, if_pos hq, h0, h1, Held8.tryPacket, Held8.tryAdd, Held8.add, room]

example := C68_message_kept8 ⟨0x50050000, 0x7E010200, 0, 0⟩ ⟨0x50050700, 0x7D010200, 0, 0⟩ (by decide) (by decide) (by decide) (by decide)

/-- C68 is false: if the callback throws for a message of several packets, and another end packet follows, the message is
delivered again with the payload of this packet appended. -/
theorem C68_message_continued8 (p q r : Packet) (hp : IsSysex8 p) (hq : IsSysex8 q) (hr : IsSysex8 r) (h0 : formatCode p = 1)
    (h1 : formatCode q = 3) (h2 : formatCode r = 3)
    (hi : stream8 q = stream8 p) (hj : stream8 r = stream8 p) :
    (({} : Collector8).tryAll [.feed p {}, .feed q { callback := true }, .feed r {}]).map Prod.snd =
      .ok [(message8 (payload8 p ++ payload8 q), stream8 p), (message8 (payload8 p ++ payload8 q ++ payload8 r), stream8 p)] := by
  rw [tried8]
  simp [Held8.tries, Held8.tryOne, if_pos hp, if_pos hq, if_pos hr, h0, h1, h2, hi, hj, Held8.tryPacket, Held8.tryAdd, Held8.add, room]

/-- A start packet, ten continue packets, one for which there is no memory, and an end packet. -/
def withoutMemory8 : List CollectorTry :=
  .feed ⟨0x501E0900, 0x7D010203, 0x04050607, 0x08090A0B⟩ {} :: (List.replicate 9 (.feed ⟨0x502E0900, 0, 0, 0⟩ {}) ++
    [.feed ⟨0x502E0911, 0x11111111, 0x11111111, 0x11111111⟩ { memory := true }, .feed ⟨0x50330902, 0x03000000, 0, 0⟩ {}])

/-- C68 is false: the packet for which there was no memory is missing from the message, which is delivered nevertheless. -/
theorem C68_packet_missing8 : (({} : Collector8).tryAll withoutMemory8).map Prod.snd =
    .ok [(message8 ([0, 0x7D, 1, 2, 3, 4, 5, 6, 7, 8, 9, 10, 11] ++ List.replicate 117 0 ++ [2, 3]), 9)] := by
  rw [tried8]
  have : (({} : Held8).tries withoutMemory8).2 =
      [([0, 0x7D, 1, 2, 3, 4, 5, 6, 7, 8, 9, 10, 11] ++ List.replicate 117 0 ++ [2, 3], 9)] := by decide +kernel
  rw [this]
  rfl

-- the hypotheses are met
example : IsSysex8 ⟨0x50040900, 0x7D010000, 0, 0⟩ ∧ IsSysex8 ⟨0x50140900, 0x7D010000, 0, 0⟩ ∧ IsSysex8 ⟨0x50330902, 0x03000000, 0, 0⟩ ∧
    formatCode ⟨0x50040900, 0x7D010000, 0, 0⟩ = 0 ∧ formatCode ⟨0x50140900, 0x7D010000, 0, 0⟩ = 1 ∧
    formatCode ⟨0x50330902, 0x03000000, 0, 0⟩ = 3 ∧ stream8 ⟨0x50140900, 0x7D010000, 0, 0⟩ = 9 ∧
    stream8 ⟨0x50330902, 0x03000000, 0, 0⟩ = 9 := by decide +kernel
-- an allocation that fails at the first packet, and a callback that throws at the third one
example : (({} : Held8).tries [.feed ⟨0x50040900, 0x7D010000, 0, 0⟩ { memory := true }, .feed ⟨0x50140900, 0x7D010000, 0, 0⟩ {},
    .feed ⟨0x50330902, 0x03000000, 0, 0⟩ { callback := true }, .feed ⟨0x50040900, 0x7D010000, 0, 0⟩ {}]).2 =
    [([0, 0x7D, 1, 2, 3], 9), ([0, 0x7D, 1], 9)] := by decide +kernel

end Midi
