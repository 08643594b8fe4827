import Verif.Lemmas.ExceptionsCollector
import Verif.Props.ReentrantCollector

/-!
# C67, C68: exceptions and the collectors
-/

namespace Midi
open Spec

/-! ## 7 bit sysex -/

/-- C67: whatever goes wrong in a history of calls, there is no memory error and no failed assertion. The messages delivered are
exactly those of the reference machine. -/
theorem C67_tries_exactly (os : List CollectorTry) :
    ∃ c, ({} : Collector7).tryAll os = .ok (c, ((({} : Held7).tries os).2).map message7) :=
  ⟨_, (tries7_exact os {} (Nat.le_refl _)).1⟩

theorem tryCollectLoop7_calm (p : Packet) (k : Nat) : ∀ (c : Collector7) (b : Nat),
    c.tryCollectLoop p false b k = (c.collectLoop p b k).map fun c => (c, false) := by
  induction k with
  | zero => intro c b; rfl
  | succ k ih =>
    intro c b
    unfold Collector7.tryCollectLoop Collector7.collectLoop
    cases hb : sysex7PayloadByte p b with
    | error f => rfl
    | ok v => rw [ok_bind, ok_bind, if_neg (by simp)]; exact ih _ _

theorem tryFeedPayload7_calm (c : Collector7) (m : Packet) :
    c.tryFeedPayload m {} = (c.feedPayload m).map fun r => (r.1, r.2, false) := by
  unfold Collector7.tryFeedPayload Collector7.feedPayload
  rw [if_neg (by simp)]
  dsimp only
  split
  · rfl
  · rw [tryCollectLoop7_calm]
    cases Collector7.collectLoop { c with capacity := (ensureCapacity c.capacity c.maxSize c.sysex.data.length (sysex7PayloadSize m)).1 }
      m 0 (sysex7PayloadSize m) with
    | error f => rfl
    | ok d =>
      simp only [Except.map, ok_bind, Bool.false_eq_true, if_false]
      split
      · cases d.hasCallback <;> rfl
      · rfl

theorem tryFeed7_calm (c : Collector7) (p : Packet) : c.tryFeed p {} = (c.feed p).map fun r => (r.1, r.2, false) := by
  unfold Collector7.tryFeed Collector7.feed
  split
  · rfl
  · cases sysex7View p with
    | error f => rfl
    | ok m =>
      simp only [ok_bind]
      split
      · split <;> exact tryFeedPayload7_calm _ _
      · split
        · rfl
        · exact tryFeedPayload7_calm _ _

/-- C67: if nothing goes wrong, this is the collector of C21, C22 and C24. -/
theorem C67_plain (os : List CollectorTry) (h : ∀ o ∈ os, Calm o) : ∀ c : Collector7, c.tryAll os = c.run (untroubled os) := by
  induction os with
  | nil => intro c; rfl
  | cons o os ih =>
    intro c
    have ho := h o (by simp)
    have ih := ih fun o ho => h o (by simp [ho])
    cases o with
    | feed p t =>
      obtain rfl : t = {} := ho
      rw [Collector7.tryAll, Collector7.tryOne, tryFeed7_calm, untroubled, Collector7.run]
      simp only [Collector7.feedAll]
      cases c.feed p with
      | error f => rfl
      | ok v => simp only [Except.map, ok_bind, pure_eq_ok, List.append_nil, ih]
    | setMaxSize n m =>
      obtain rfl : m = false := ho
      rw [Collector7.tryAll, Collector7.tryOne, ok_bind, untroubled, Collector7.run]
      have e : (c.trySetMaxSize n false).1 = c.setMaxSize n := by
        unfold Collector7.trySetMaxSize Collector7.setMaxSize
        dsimp only
        split <;> rfl
      dsimp only
      rw [e, ih]
      cases (c.setMaxSize n).run (untroubled os) <;> rfl
    | setCallback b =>
      rw [Collector7.tryAll, Collector7.tryOne, ok_bind, untroubled, Collector7.run]
      dsimp only
      rw [ih]
      cases (c.setCallback b).run (untroubled os) <;> rfl
    | reset =>
      rw [Collector7.tryAll, Collector7.tryOne, ok_bind, untroubled, Collector7.run]
      dsimp only
      rw [ih]
      cases c.reset.run (untroubled os) <;> rfl

example := C67_plain [.feed ⟨0x30167E01, 0x02030405, 0, 0⟩ {}, .reset, .feed ⟨0x30027E01, 0, 0, 0⟩ {}] (by simp [Calm])

theorem built7_tryAdd (s : Held7) {h : List Packet} (hs : Built7 h s.held) {p : Packet} (hp : IsSysex7 p) (k : Bool) (t : Trouble) :
    Built7 (h ++ [p]) (s.tryAdd k (payload7 p) t).1.held ∧ ∀ m ∈ (s.tryAdd k (payload7 p) t).2.1, Built7 (h ++ [p]) m := by
  have hsub : h.Sublist (h ++ [p]) := List.sublist_append_left _ _
  unfold Held7.tryAdd Held7.add
  dsimp only
  split
  · exact ⟨hs.mono hsub, by simp⟩
  · split
    · exact ⟨hs.append hp, by simpa using hs.append hp⟩
    · split
      · split
        · refine ⟨built7_nil _, ?_⟩
          intro m hm
          split at hm
          · rw [List.mem_singleton.1 hm]; exact hs.append hp
          · simp at hm
        · exact ⟨hs.append hp, by simp⟩
      · exact ⟨hs.mono hsub, by simp⟩

theorem built7_tries (os : List CollectorTry) : ∀ (s : Held7) (h : List Packet), Built7 h s.held →
    ∀ m ∈ (s.tries os).2, Built7 (h ++ fedBy os) m := by
  induction os with
  | nil => intro s h _ m hm; simp [Held7.tries] at hm
  | cons o os ih =>
    intro s h hs m hm
    rw [Held7.tries] at hm
    cases o with
    | feed p t =>
      rw [fedBy, show h ++ p :: fedBy os = h ++ [p] ++ fedBy os by simp]
      have key : Built7 (h ++ [p]) (s.tryOne (.feed p t)).1.held ∧ ∀ m ∈ (s.tryOne (.feed p t)).2.1, Built7 (h ++ [p]) m := by
        rw [Held7.tryOne]
        by_cases hp : IsSysex7 p
        · rw [if_pos hp, Held7.tryPacket]
          split
          · refine built7_tryAdd _ ?_ hp _ _
            split
            · exact built7_nil _
            · exact hs
          · split
            · exact built7_tryAdd s hs hp _ _
            · exact ⟨built7_nil _, by simp⟩
        · rw [if_neg hp]
          exact ⟨hs.mono (List.sublist_append_left _ _), by simp⟩
      rcases List.mem_append.1 hm with hm | hm
      · exact (key.2 m hm).mono (List.sublist_append_left _ _)
      · exact ih _ _ key.1 m hm
    | setMaxSize n b =>
      have e : (s.tryOne (.setMaxSize n b)).2.1 = [] ∧ (s.tryOne (.setMaxSize n b)).1.held = s.held := by
        rw [Held7.tryOne]; split <;> exact ⟨rfl, rfl⟩
      rcases List.mem_append.1 hm with hm | hm
      · rw [e.1] at hm; simp at hm
      · exact ih _ h (by rw [e.2]; exact hs) m hm
    | setCallback b =>
      rcases List.mem_append.1 hm with hm | hm
      · simp [Held7.tryOne] at hm
      · exact ih { s with callback := b } h hs m hm
    | reset =>
      rcases List.mem_append.1 hm with hm | hm
      · simp [Held7.tryOne] at hm
      · exact ih _ h (built7_nil _) m hm

/-- C67: every message delivered, whatever went wrong before, is put together from the payloads of sysex packets that were fed,
in the order in which they were fed. -/
theorem C67_nothing_invented (os : List CollectorTry) :
    ∃ c out, ({} : Collector7).tryAll os = .ok (c, out) ∧ ∀ m ∈ out,
      ∃ ps : List Packet, ps.Sublist (fedBy os) ∧ (∀ p ∈ ps, IsSysex7 p) ∧ m = message7 (ps.map payload7).flatten := by
  refine ⟨_, _, (tries7_exact os {} (Nat.le_refl _)).1, ?_⟩
  intro m hm
  obtain ⟨d, hd, rfl⟩ := List.mem_map.1 hm
  obtain ⟨ps, h1, h2, h3⟩ := built7_tries os {} [] (built7_nil _) d hd
  exact ⟨ps, h1, h2, by rw [h3]⟩

/-- C67: an allocation that fails leaves the collector as it was before the packet; only a message that was running is given up
if the packet begins another one. -/
theorem C67_failed_allocation (os : List CollectorTry) (c c' : Collector7) (out ms : List Sysex) (p : Packet) (t : Trouble)
    (h : ({} : Collector7).tryAll os = .ok (c, out)) (ht : t.callback = false) (h' : c.tryFeed p t = .ok (c', ms, true)) :
    ms = [] ∧ c' = if formatCode p ≤ 1 ∧ c.state ≠ 0x10 then c.reset else c := by
  obtain ⟨e, hg⟩ := tries7_exact os {} (Nat.le_refl _)
  rw [show conc7 {} = ({} : Collector7) from rfl, h] at e
  cases e
  generalize (({} : Held7).tries os).1 = s at hg h' ⊢
  by_cases hp : IsSysex7 p
  · rw [(tryPacket7_exact s hg p hp t).1] at h'
    have key : ∀ (s : Held7) k, (s.tryAdd k (payload7 p) t).2.2 = true → s.tryAdd k (payload7 p) t = (s, [], true) := by
      intro s k hk
      unfold Held7.tryAdd at hk ⊢
      dsimp only at hk ⊢
      split at hk
      · next hc => rw [if_pos hc]
      · rw [if_neg (by simp [ht])] at hk; simp at hk
    have h3 := congrArg (fun x => (Except.map (fun y => y.2.2) x)) h'
    simp only [Except.map, Except.ok.injEq] at h3
    have hrun : (conc7 s).state ≠ 0x10 ↔ s.running = true := by
      cases hr : s.running <;> simp [conc7, hr]
    unfold Held7.tryPacket at h' h3
    by_cases hlow : formatCode p = 0 ∨ formatCode p = 1
    · rw [if_pos hlow] at h' h3
      rw [key _ _ h3] at h'
      cases h'
      refine ⟨rfl, ?_⟩
      by_cases hr : s.running = true
      · rw [if_pos hr, if_pos ⟨by omega, hrun.2 hr⟩, conc7_reset s (conc7 s) rfl rfl rfl]
      · rw [if_neg hr, if_neg (fun x => hr (hrun.1 x.2))]
    · rw [if_neg hlow] at h' h3
      rw [if_neg (by omega)]
      split at h'
      · next hr =>
        rw [if_pos hr] at h3
        rw [key _ _ h3] at h'
        cases h'
        exact ⟨rfl, rfl⟩
      · next hr => rw [if_neg hr] at h3; simp at h3
  · have hb : isSysex7Packet p = false := by
      rw [← Bool.not_eq_true, C15_is_sysex7_packet_iff]; exact hp
    unfold Collector7.tryFeed at h'
    simp only [hb, Bool.not_false, if_true, pure_eq_ok] at h'
    cases h'

example := C67_failed_allocation [.feed ⟨0x30330607, 0x08000000, 0, 0⟩ {}] _ _ _ _ ⟨0x30167E01, 0x02030405, 0, 0⟩ { memory := true }
  rfl rfl rfl

/-- Without limit, what is delivered depends on what is held only. -/
theorem packets7_unlimited (l : List (Nat × List Byte)) : ∀ (s s' : Held7), s.limit = 0 → s'.limit = 0 → s.callback = s'.callback →
    s.running = s'.running → s.held = s'.held → (s.packets l).2 = (s'.packets l).2 := by
  induction l with
  | nil => intro _ _ _ _ _ _ _; rfl
  | cons x l ih =>
    obtain ⟨f, d⟩ := x
    intro s s' h1 h2 h3 h4 h5
    have hadd : ∀ (s s' : Held7) k, s.limit = 0 → s'.limit = 0 → s.callback = s'.callback → s.running = s'.running →
        s.held = s'.held → (s.add k d).2 ++ ((s.add k d).1.packets l).2 = (s'.add k d).2 ++ ((s'.add k d).1.packets l).2 := by
      intro s s' k h1 h2 h3 h4 h5
      unfold Held7.add room
      simp only [h1, h2, true_or, decide_true, if_true]
      cases k
      · simp only [Bool.false_eq_true, if_false]
        rw [ih _ _ _ _ _ _ _] <;> simp [h1, h2, h3, h5]
      · simp only [if_true]
        rw [h3, h5, ih _ _ _ _ _ _ _] <;> simp [Held7.cleared, h1, h2, h3]
    show (s.packet f d).2 ++ ((s.packet f d).1.packets l).2 = (s'.packet f d).2 ++ ((s'.packet f d).1.packets l).2
    unfold Held7.packet
    split
    · rw [h4]
      split
      · exact hadd _ _ _ h1 h2 h3 rfl rfl
      · exact hadd _ _ _ h1 h2 h3 h4 h5
    · rw [h4]
      split
      · exact hadd _ _ _ h1 h2 h3 h4 h5
      · exact ih s.cleared s'.cleared h1 h2 h3 rfl rfl

/-- C67: after a reset, a collector without limit delivers the same as a new one, whatever happened before. -/
theorem C67_reset (os : List CollectorTry) (c : Collector7) (out : List Sysex) (h : ({} : Collector7).tryAll os = .ok (c, out))
    (hl : c.maxSize = 0) (hcb : c.hasCallback = true) (ps : List Packet) :
    ∃ c1 c2 ms, c.reset.feedAll ps = .ok (c1, ms) ∧ ({} : Collector7).feedAll ps = .ok (c2, ms) := by
  obtain ⟨e, -⟩ := tries7_exact os {} (Nat.le_refl _)
  rw [show conc7 {} = ({} : Collector7) from rfl, h] at e
  cases e
  have h1 := (packets7_exact ps _ (good7_cleared (({} : Held7).tries os).1)).1
  have h2 := (packets7_exact ps ({} : Held7) (Nat.le_refl _)).1
  rw [packets7_unlimited (items7 ps) (({} : Held7).tries os).1.cleared ({} : Held7) hl rfl hcb rfl rfl] at h1
  rw [conc7_reset _ (conc7 _) rfl rfl rfl]
  exact ⟨_, _, _, h1, h2⟩

example := C67_reset [.feed ⟨0x30167E01, 0x02030405, 0, 0⟩ {}, .feed ⟨0x30330607, 0x08000000, 0, 0⟩ { callback := true }] _ _ rfl rfl rfl
  [⟨0x30027E01, 0, 0, 0⟩]

/-- A message without limit: what is delivered for its packets. -/
theorem framed7 (ps : List Packet) (hps : ∀ p ∈ ps, IsSysex7 p) (hf : Framed (ps.map formatCode)) (s : Held7) (hl : s.limit = 0)
    (hcb : s.callback = true) :
    (s.packets (items7 ps)).2 = [(if s.running then [] else s.held) ++ (ps.map payload7).flatten] := by
  have hmid : ∀ (ps : List Packet) (n : Nat), (∀ p ∈ ps, IsSysex7 p) → ps.map formatCode = List.replicate n 2 ++ [3] →
      ∀ s : Held7, s.limit = 0 → s.callback = true → s.running = true →
      (s.packets (items7 ps)).2 = [s.held ++ (ps.map payload7).flatten] := by
    intro ps
    induction ps with
    | nil => intro n _ h; simp at h
    | cons p ps ih =>
      intro n hps h s h1 h2 h3
      rw [items7_cons_pos ps (hps p (by simp))]
      simp only [Held7.packets]
      cases n with
      | zero =>
        obtain ⟨hp, hn⟩ : formatCode p = 3 ∧ ps = [] := by simpa using h
        subst hn
        simp [Held7.packet, hp, h3, Held7.add, room, h1, h2, items7, Held7.packets]
      | succ n =>
        obtain ⟨hp, hn⟩ : formatCode p = 2 ∧ ps.map formatCode = List.replicate n 2 ++ [3] := by
          simpa [List.replicate_succ] using h
        have e : s.packet (formatCode p) (payload7 p) =
            ({ s with storage := grown s.limit s.storage ((message7 s.held).data.length + (payload7 p).length), running := true,
                      held := s.held ++ payload7 p }, []) := by
          simp [Held7.packet, hp, h3, Held7.add, room, h1]
        rw [e]
        dsimp only
        rw [ih n (fun p hp => hps p (by simp [hp])) hn _ (by exact h1) (by exact h2) rfl]
        simp
  rcases hf with hf | ⟨n, hf⟩
  · obtain ⟨p, rfl, hp⟩ := List.map_eq_singleton_iff.1 hf
    rw [items7_cons_pos [] (hps p (by simp))]
    simp only [Held7.packets, Held7.packet, hp]
    by_cases hr : s.running = true
    · simp [hr, Held7.add, Held7.cleared, room, hl, hcb, items7, Held7.packets]
    · simp [hr, Held7.add, room, hl, hcb, items7, Held7.packets]
  · match ps, hf with
    | p :: ps, hf =>
      obtain ⟨hp, hn⟩ : formatCode p = 1 ∧ ps.map formatCode = List.replicate n 2 ++ [3] := by simpa using hf
      rw [items7_cons_pos ps (hps p (by simp))]
      simp only [Held7.packets, Held7.packet, hp]
      by_cases hr : s.running = true
      · simp only [hr, if_true, Held7.add, Held7.cleared, room, hl, true_or, decide_true, or_true]
        simp only [show ¬ (1 : Nat) = 0 by decide, decide_false, Bool.false_eq_true, if_false, List.nil_append]
        refine (hmid ps n (fun p hp => hps p (by simp [hp])) hn _ (by rfl) (by exact hcb) (by rfl)).trans ?_
        simp
      · simp only [hr, Bool.false_eq_true, if_false, Held7.add, room, hl, true_or, decide_true, or_true, if_true]
        simp only [show ¬ (1 : Nat) = 0 by decide, decide_false, Bool.false_eq_true, if_false, List.nil_append]
        refine (hmid ps n (fun p hp => hps p (by simp [hp])) hn _ (by rfl) (by exact hcb) (by rfl)).trans ?_
        simp

/-- C68, exactly: what a collector without limit delivers for the packets of a message, whatever went wrong before. If a message is
held but not running, it is put in front. -/
theorem C68_next_exactly (os : List CollectorTry) (ps : List Packet) (hps : ∀ p ∈ ps, IsSysex7 p) (hf : Framed (ps.map formatCode))
    (c : Collector7) (out : List Sysex) (h : ({} : Collector7).tryAll os = .ok (c, out)) (hl : c.maxSize = 0)
    (hcb : c.hasCallback = true) :
    ∃ c', c.feedAll ps = .ok (c', [message7 ((if (({} : Held7).tries os).1.running then [] else (({} : Held7).tries os).1.held) ++
      (ps.map payload7).flatten)]) := by
  obtain ⟨e, hg⟩ := tries7_exact os {} (Nat.le_refl _)
  rw [show conc7 {} = ({} : Collector7) from rfl, h] at e
  cases e
  have h1 := (packets7_exact ps _ hg).1
  rw [framed7 ps hps hf _ hl hcb] at h1
  exact ⟨_, h1⟩

example := C68_next_exactly [.feed ⟨0x30027E01, 0, 0, 0⟩ { callback := true }]
  [⟨0x30167E01, 0x02030405, 0, 0⟩, ⟨0x30330607, 0x08000000, 0, 0⟩] (by decide) (Or.inr ⟨0, by decide⟩) _ _ rfl rfl rfl

/-- Nothing is held, or the message is running. -/
def Tidy7 (s : Held7) : Prop := s.limit = 0 ∧ (s.running = false → s.held = [])

theorem tidy7_add (s : Held7) (hl : s.limit = 0) (k : Bool) (d : List Byte) : Tidy7 (s.add k d).1 := by
  unfold Held7.add room
  dsimp only
  rw [if_pos (by simp [hl])]
  cases k
  · exact ⟨hl, fun h => nomatch h⟩
  · exact ⟨hl, fun _ => rfl⟩

theorem tidy7_tries (os : List CollectorTry) (hlim : ∀ n m, .setMaxSize n m ∈ os → n = 0)
    (hc : ∀ p t, .feed p t ∈ os → formatCode p = 0 → t.callback = false) : ∀ s : Held7, Tidy7 s → Tidy7 (s.tries os).1 := by
  induction os with
  | nil => intro s h; exact h
  | cons o os ih =>
    intro s h
    rw [Held7.tries]
    refine ih (fun n m hm => hlim n m (by simp [hm])) (fun p t hm => hc p t (by simp [hm])) _ ?_
    cases o with
    | feed p t =>
      have hadd : ∀ (s : Held7) (k : Bool) (hk : k = true → t.callback = true → s.running = true) (_ : Tidy7 s),
          Tidy7 (s.tryAdd k (payload7 p) t).1 := by
        intro s k hk hs
        unfold Held7.tryAdd
        dsimp only
        split
        · exact hs
        · split
          · next h1 h2 => exact ⟨hs.1, fun hr => by rw [hk h2.2.1 h2.1] at hr; cases hr⟩
          · exact tidy7_add s hs.1 k _
      show Tidy7 (s.tryOne (.feed p t)).1
      rw [Held7.tryOne]
      split
      · rw [Held7.tryPacket]
        split
        · refine hadd _ _ ?_ ?_
          · intro hk ht
            rw [hc p t (by simp) (by simpa using hk)] at ht
            cases ht
          · split
            · exact ⟨h.1, fun _ => rfl⟩
            · exact h
        · split
          · next hr => exact hadd s _ (fun _ _ => hr) h
          · exact ⟨h.1, fun _ => rfl⟩
      · exact h
    | setMaxSize n m =>
      have hn := hlim n m (by simp)
      show Tidy7 (s.tryOne (.setMaxSize n m)).1
      rw [Held7.tryOne]
      split <;> exact ⟨hn, h.2⟩
    | setCallback b => exact h
    | reset => exact ⟨h.1, fun _ => rfl⟩

/-- C68, without a limit, if no callback throws for a message that is one complete packet: whatever else went wrong before, the
next message is delivered as it is. -/
theorem C68_next_message_partial (os : List CollectorTry) (hlim : ∀ n m, .setMaxSize n m ∈ os → n = 0)
    (hc : ∀ p t, .feed p t ∈ os → formatCode p = 0 → t.callback = false)
    (ps : List Packet) (hps : ∀ p ∈ ps, IsSysex7 p) (hf : Framed (ps.map formatCode))
    (c : Collector7) (out : List Sysex) (h : ({} : Collector7).tryAll os = .ok (c, out)) (hcb : c.hasCallback = true) :
    ∃ c', c.feedAll ps = .ok (c', [message7 (ps.map payload7).flatten]) := by
  have ht := tidy7_tries os hlim hc {} ⟨rfl, fun _ => rfl⟩
  obtain ⟨e, hg⟩ := tries7_exact os {} (Nat.le_refl _)
  rw [show conc7 {} = ({} : Collector7) from rfl, h] at e
  cases e
  have h1 := (packets7_exact ps _ hg).1
  rw [framed7 ps hps hf _ ht.1 hcb] at h1
  have : (if (({} : Held7).tries os).1.running = true then [] else (({} : Held7).tries os).1.held) = [] := by
    split
    · rfl
    · next hr => exact ht.2 (by simpa using hr)
  rw [this] at h1
  exact ⟨_, h1⟩

example := C68_next_message_partial [.feed ⟨0x30167E01, 0x02030405, 0, 0⟩ {}, .feed ⟨0x30330607, 0x08000000, 0, 0⟩ { callback := true }]
  (by simp)
  (by intro p t h; simp at h; rcases h with ⟨rfl, rfl⟩ | ⟨rfl, rfl⟩ <;> decide)
  [⟨0x30167E01, 0x02030405, 0, 0⟩, ⟨0x30330607, 0x08000000, 0, 0⟩] (by decide) (Or.inr ⟨0, by decide⟩) _ _ rfl rfl

theorem tried7 (os : List CollectorTry) : (({} : Collector7).tryAll os).map Prod.snd =
    .ok (((({} : Held7).tries os).2).map message7) := by
  have e := (tries7_exact os {} (Nat.le_refl _)).1
  rw [show ({} : Collector7) = conc7 {} from rfl, e]; rfl

/-- C68 is false: if the callback throws for a message that is one complete packet, this message is put in front of the next
one. -/
theorem C68_message_kept (p q : Packet) (hp : IsSysex7 p) (hq : IsSysex7 q) (h0 : formatCode p = 0) (h1 : formatCode q = 0) :
    (({} : Collector7).tryAll [.feed p { callback := true }, .feed q {}]).map Prod.snd =
      .ok [message7 (payload7 p), message7 (payload7 p ++ payload7 q)] := by
  rw [tried7]
  simp [Held7.tries, Held7.tryOne, if_pos hp, if_pos hq, h0, h1, Held7.tryPacket, Held7.tryAdd, Held7.add, room]

example := C68_message_kept ⟨0x30027E01, 0, 0, 0⟩ ⟨0x30027D02, 0, 0, 0⟩ (by decide) (by decide) (by decide) (by decide)

/-- C68 is false: if the callback throws for a message of several packets, and another end packet follows, the message is
delivered again with the payload of this packet appended. -/
theorem C68_message_continued (p q r : Packet) (hp : IsSysex7 p) (hq : IsSysex7 q) (hr : IsSysex7 r) (h0 : formatCode p = 1)
    (h1 : formatCode q = 3) (h2 : formatCode r = 3) :
    (({} : Collector7).tryAll [.feed p {}, .feed q { callback := true }, .feed r {}]).map Prod.snd =
      .ok [message7 (payload7 p ++ payload7 q), message7 (payload7 p ++ payload7 q ++ payload7 r)] := by
  rw [tried7]
  simp [Held7.tries, Held7.tryOne, if_pos hp, if_pos hq, if_pos hr, h0, h1, h2, Held7.tryPacket, Held7.tryAdd, Held7.add, room]

/-- A start packet, twenty continue packets, one for which there is no memory, and an end packet. -/
def withoutMemory7 : List CollectorTry :=
  .feed ⟨0x30167D01, 0x02030405, 0, 0⟩ {} :: (List.replicate 20 (.feed ⟨0x30260000, 0, 0, 0⟩ {}) ++
    [.feed ⟨0x30261111, 0x11111111, 0, 0⟩ { memory := true }, .feed ⟨0x30320203, 0, 0, 0⟩ {}])

/-- C68 is false: the packet for which there was no memory is missing from the message, which is delivered nevertheless. -/
theorem C68_packet_missing : (({} : Collector7).tryAll withoutMemory7).map Prod.snd =
    .ok [message7 ([0x7D, 1, 2, 3, 4, 5] ++ List.replicate 120 0 ++ [2, 3])] := by
  rw [tried7]
  have : (({} : Held7).tries withoutMemory7).2 = [[0x7D, 1, 2, 3, 4, 5] ++ List.replicate 120 0 ++ [2, 3]] := by decide +kernel
  rw [this]
  rfl

-- the hypotheses are met
example : IsSysex7 ⟨0x30027E01, 0, 0, 0⟩ ∧ IsSysex7 ⟨0x30127D02, 0, 0, 0⟩ ∧ IsSysex7 ⟨0x30310300, 0, 0, 0⟩ ∧
    formatCode ⟨0x30027E01, 0, 0, 0⟩ = 0 ∧ formatCode ⟨0x30127D02, 0, 0, 0⟩ = 1 ∧ formatCode ⟨0x30310300, 0, 0, 0⟩ = 3 := by
  decide +kernel
-- an allocation that fails at the first packet, and a callback that throws at the second one
example : (({} : Held7).tries [.feed ⟨0x30027E01, 0, 0, 0⟩ { memory := true }, .feed ⟨0x30127D02, 0, 0, 0⟩ {},
    .feed ⟨0x30310300, 0, 0, 0⟩ { callback := true }, .feed ⟨0x30027E01, 0, 0, 0⟩ {}]).2 = [[0x7D, 2, 3], [0x7E, 1]] := by
  decide +kernel
example : (({} : Held7).tryOne (.feed ⟨0x30027E01, 0, 0, 0⟩ { memory := true })).2.2 = true := by decide +kernel

end Midi
