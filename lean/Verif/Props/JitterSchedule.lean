import Verif.Props.Jitter
import Mathlib.Data.List.Induction

/-!
# Property C49: scheduling of messages by the clock follower
-/

namespace Midi.Jr
open Spec.Jr

theorem lastClock_append (last : Option Nat) (a : List Event) (e : Event) :
    lastClock last (a ++ [e]) = if e.isClock then some e.sent else lastClock last a := by
  induction a generalizing last with
  | nil => rfl
  | cons x a ih => exact ih _

theorem closeToClock_append (last : Option Nat) (a : List Event) (e : Event) :
    closeToClock last (a ++ [e]) =
      (closeToClock last a && near (lastClock last a) e) := by
  induction a generalizing last with
  | nil => simp [closeToClock, lastClock]
  | cons x a ih =>
    rw [List.cons_append, closeToClock, ih, closeToClock, lastClock, Bool.and_assoc]

theorem Ideal.snoc {zero : Int} {a : List Event} {e : Event} (h : Ideal zero (a ++ [e])) :
    Ideal zero a ∧ (∀ x ∈ a, x.sent ≤ e.sent ∧ x.received ≤ e.received) ∧ zero < e.received ∧
      (∀ c, lastClock none a = some c → e.sent < c + 65536) := by
  obtain ⟨h1, h2, h3⟩ := h
  rw [List.pairwise_append] at h1
  rw [closeToClock_append, Bool.and_eq_true] at h2
  refine ⟨⟨h1.1, h2.1, fun x hx => h3 x (by simp [hx])⟩, fun x hx => h1.2.2 x hx e (by simp), h3 e (by simp), ?_⟩
  intro c hc
  have := h2.2
  rw [hc] at this
  simpa [near] using this

theorem lastClock_mem {a : List Event} {c : Nat} (h : lastClock none a = some c) : ∃ r, Event.clock c r ∈ a := by
  induction a using List.reverseRecOn with
  | nil => cases h
  | append_singleton a e ih =>
    rw [lastClock_append] at h
    cases e with
    | clock s r =>
      injection h with h
      subst h
      exact ⟨r, by simp [Event.sent]⟩
    | message s r =>
      obtain ⟨r', h'⟩ := ih h
      exact ⟨r', by simp [h']⟩

theorem latencies_append (a : List Event) (e : Event) : latencies (a ++ [e]) =
    latencies a ++ match e with | .clock s r => [r - 32000 * s] | .message .. => [] := by
  unfold latencies
  rw [List.filterMap_append]
  cases e <;> rfl

theorem latencies_nil_iff (a : List Event) : latencies a = [] ↔ lastClock none a = none := by
  induction a using List.reverseRecOn with
  | nil => exact ⟨fun _ => rfl, fun _ => rfl⟩
  | append_singleton a e ih =>
    rw [latencies_append, lastClock_append]
    cases e with
    | clock s r => simp [Event.isClock]
    | message s r => simpa [Event.isClock] using ih

theorem run_snoc {s u : Follower} {a : List Event} {e : Event} {outs : List Int}
    (h : s.run ((a ++ [e]).map Event.call) = .ok (u, outs)) :
    ∃ t o os, s.run (a.map Event.call) = .ok (t, o) ∧ t.call e.call = .ok (u, os) ∧ outs = o ++ os := by
  rw [List.map_append, run_append, bind_ok] at h
  obtain ⟨⟨t, o⟩, h1, h⟩ := h
  rw [bind_ok] at h
  obtain ⟨⟨u', os⟩, h2, h⟩ := h
  injection h with h
  injection h with h3 h4
  obtain ⟨t2, o2, os2, h5, h6, h7⟩ := run_cons h2
  injection h6 with h6
  injection h6 with h8 h9
  refine ⟨t, o, o2, h1, ?_, ?_⟩
  · rw [h5, h8, h3]
  · rw [← h4, h7, ← h9, List.append_nil]

theorem expected_of {s : Follower} {c t : Nat} (hts : s.clockTs = BitVec.ofNat 16 c) (h1 : c ≤ t) (h2 : t < c + 65536) :
    s.expected (BitVec.ofNat 16 t) = s.clockTime + 32000 * ((t : Int) - c) := by
  unfold Follower.expected
  rw [hts, C47_elapsed c t h1 h2]

/-- What the follower knows after an ideal history. -/
theorem ideal_state (zero : Int) (h : List Event) (s : Follower) (outs : List Int) (hi : Ideal zero h)
    (hr : (Follower.init zero).run (h.map Event.call) = .ok (s, outs)) :
    s.zero = zero ∧ 0 ≤ s.jitter ∧
    (lastClock none h = none → s.clockTime = zero) ∧
    (∀ c, lastClock none h = some c → s.clockTs = BitVec.ofNat 16 c ∧ zero < s.clockTime ∧
      ∃ m, IsMin m (latencies h) ∧ s.clockTime = 32000 * c + m) := by
  induction h using List.reverseRecOn generalizing s outs with
  | nil =>
    injection hr with hr
    injection hr with h1 h2
    subst h1
    exact ⟨rfl, (init_nonneg _).1, fun _ => rfl, fun c hc => by cases hc⟩
  | append_singleton a e ih =>
    obtain ⟨hia, hord, hpos, hclose⟩ := Ideal.snoc hi
    obtain ⟨t, o, os, h1, h2, -⟩ := run_snoc hr
    obtain ⟨iz, ij, i1, i2⟩ := ih t o hia h1
    rw [lastClock_append, latencies_append]
    cases e with
    | message sent r =>
      obtain ⟨x, h3, -⟩ := call_schedule h2
      rw [(Follower.scheduleMessage_ok h3).1]
      simp only [Event.isClock, List.append_nil]
      exact ⟨iz, ij, i1, i2⟩
    | clock sent r =>
      obtain ⟨h3, -⟩ := call_clock h2
      simp only [Event.isClock, if_true]
      cases hl : lastClock none a with
      | none =>
        have hz : t.clockTime = t.zero := by rw [i1 hl, iz]
        rw [Follower.processClock_first hz] at h3
        injection h3 with h3
        subst h3
        refine ⟨iz, ij, (fun h => absurd h (by simp)), ?_⟩
        intro c hc
        injection hc with hc
        subst hc
        refine ⟨rfl, hpos, r - 32000 * sent, ?_, ?_⟩
        · rw [(latencies_nil_iff a).2 hl]
          exact ⟨by simp, by simp⟩
        · show r = _; simp only [Event.sent]; omega
      | some c =>
        obtain ⟨hts, hpos', m, hm, hct⟩ := i2 c hl
        obtain ⟨r', hmem⟩ := lastClock_mem hl
        have hcs : c ≤ sent := (hord _ hmem).1
        have hex : t.expected (BitVec.ofNat 16 sent) = 32000 * sent + m := by
          rw [expected_of hts hcs (hclose c hl), hct]; omega
        have := Follower.processClock_ok ij (by omega) h3
        rw [hex] at this
        subst this
        refine ⟨iz, Int.le_trans ij (Follower.jitterAfter_ge ij), (fun h => absurd h (by simp)), ?_⟩
        intro c' hc
        injection hc with hc
        subst hc
        refine ⟨rfl, ?_, min (r - 32000 * sent) m, ⟨?_, ?_⟩, ?_⟩
        · show zero < min r (32000 * sent + m)
          have : zero < r := hpos
          omega
        · rw [List.mem_append]
          by_cases hlt : r - 32000 * (sent : Int) ≤ m
          · right; rw [Int.min_eq_left hlt]; simp
          · left; rw [Int.min_eq_right (by omega)]; exact hm.1
        · intro x hx
          rw [List.mem_append] at hx
          rcases hx with hx | hx
          · have := hm.2 x hx; omega
          · simp only [List.mem_singleton] at hx; omega
        · show min r (32000 * sent + m) = 32000 * sent + min (r - 32000 * sent) m
          omega

/-- C49: the reference of the follower is the fastest clock message so far: after the history of an ideal sender, a message
is scheduled no earlier than at the time it was sent, plus the smallest time a clock message took, plus the security offset.
It is not scheduled in the past unless it took longer than this. Before the first clock message there is no reference, and
messages are delayed by the security offset only. -/
theorem C49_never_early (zero : Int) (h : List Event) (sent : Nat) (received : Int) (s s' : Follower) (outs : List Int)
    (x : Int) (hi : Ideal zero (h ++ [.message sent received]))
    (hr : (Follower.init zero).run (h.map Event.call) = .ok (s, outs))
    (hx : s.scheduleMessage received (BitVec.ofNat 16 sent) = .ok (s', x)) :
    (latencies h = [] → x = received + s.securityOffset) ∧
    (∀ m, IsMin m (latencies h) → 32000 * sent + m + s.securityOffset ≤ x ∧
      (received - 32000 * sent ≤ m + s.securityOffset → received ≤ x)) := by
  obtain ⟨hia, hord, hpos, hclose⟩ := Ideal.snoc hi
  obtain ⟨iz, ij, i1, i2⟩ := ideal_state zero h s outs hia hr
  obtain ⟨e1, e2⟩ := Follower.scheduleMessage_ok hx
  constructor
  · intro hl
    have hz := i1 ((latencies_nil_iff h).1 hl)
    rw [e2, e1]
    show (if s.clockTime ≠ s.zero then _ else _) + s.securityOffset = _
    rw [if_neg (by rw [hz, iz]; simp)]
  · intro m hm
    cases hl : lastClock none h with
    | none => rw [(latencies_nil_iff h).2 hl] at hm; exact absurd hm.1 (by simp)
    | some c =>
      obtain ⟨hts, hp, m', hm', hct⟩ := i2 c hl
      have : m = m' := by
        have h1 := hm.2 m' hm'.1
        have h2 := hm'.2 m hm.1
        omega
      subst this
      obtain ⟨r', hmem⟩ := lastClock_mem hl
      have hex : s.expected (BitVec.ofNat 16 sent) = 32000 * sent + m := by
        rw [expected_of (t := sent) hts (hord _ hmem).1 (hclose c hl), hct]; omega
      have : x = max s.messageTime (32000 * sent + m) + s.securityOffset := by
        rw [e2, e1]
        show (if s.clockTime ≠ s.zero then _ else _) + s.securityOffset = _
        rw [if_pos (by omega), hex]
      omega

-- a message sent at tick 6250, with a smallest clock latency of 100 ms and a security offset of 3.6 ms
example : Ideal 0 (steady.take 5 ++ [.message 6250 301000000]) ∧ IsMin 100000000 (latencies (steady.take 5)) ∧
    (∃ s o, (Follower.init 0).run ((steady.take 5).map Event.call) = .ok (s, o) ∧
      (s.scheduleMessage 301000000 (BitVec.ofNat 16 6250)).map Prod.snd = .ok 304600000) := by
  refine ⟨by decide +kernel, ⟨by decide +kernel, by decide +kernel⟩, _, _, rfl, by decide +kernel⟩

/-- C49: in any state of the follower, messages that arrive without a clock message between them are scheduled in the order
of their arrival, whatever their timestamps are. -/
theorem C49_order_between_clocks (b : List Event) (s u : Follower) (outs : List Int)
    (hi : b.Pairwise fun e f => e.received ≤ f.received) (hb : ∀ e ∈ b, e.isClock = false)
    (hu : s.run (b.map Event.call) = .ok (u, outs)) : outs.Pairwise (· ≤ ·) := by
  -- either there is a reference, and the schedule time never decreases; or receive times are used
  have key : ∀ (b : List Event) (s u : Follower) (outs : List Int), (∀ e ∈ b, e.isClock = false) →
      (s.clockTime = s.zero → b.Pairwise fun e f => e.received ≤ f.received) →
      s.run (b.map Event.call) = .ok (u, outs) →
      outs.Pairwise (· ≤ ·) ∧ ((s.clockTime ≠ s.zero ∨ ∀ e ∈ b, s.messageTime ≤ e.received) →
        ∀ x ∈ outs, s.messageTime + s.securityOffset ≤ x) := by
    intro b
    induction b with
    | nil =>
      intro s u outs _ _ h
      injection h with h
      injection h with h1 h2
      subst h2
      exact ⟨List.Pairwise.nil, fun _ x hx => by cases hx⟩
    | cons e b ih =>
      intro s u outs hb hm h
      cases e with
      | clock c r => exact absurd (hb _ (List.mem_cons_self ..)) (by simp [Event.isClock])
      | message sent r =>
        obtain ⟨t, o, os, h1, h2, h3⟩ := run_cons h
        obtain ⟨x, h4, h5⟩ := call_schedule h1
        subst h5 h3
        obtain ⟨e1, e2⟩ := Follower.scheduleMessage_ok h4
        have hz : t.clockTime = s.clockTime ∧ t.zero = s.zero ∧ t.securityOffset = s.securityOffset := by
          rw [e1]; exact ⟨rfl, rfl, rfl⟩
        obtain ⟨j1, j2⟩ := ih t u os (fun e he => hb e (List.mem_cons_of_mem _ he))
          (fun h => (hm (by rw [← hz.1, ← hz.2.1, h])).of_cons) h2
        have hx : x = t.messageTime + t.securityOffset := e2
        have hge : ∀ y ∈ os, x ≤ y := by
          rw [hx]
          refine j2 ?_
          by_cases hcz : s.clockTime = s.zero
          · right
            intro f hf
            have : t.messageTime = r := by
              rw [e1]; show (if s.clockTime ≠ s.zero then _ else _) = _; rw [if_neg (by simp [hcz])]
            rw [this]
            exact List.rel_of_pairwise_cons (hm hcz) hf
          · left; rw [hz.1, hz.2.1]; exact hcz
        have hsx : (s.clockTime ≠ s.zero ∨ ∀ e ∈ Event.message sent r :: b, s.messageTime ≤ e.received) →
            s.messageTime + s.securityOffset ≤ x := by
          intro hc
          rw [hx, hz.2.2]
          have : s.messageTime ≤ t.messageTime := by
            rw [e1]
            show _ ≤ if s.clockTime ≠ s.zero then _ else _
            split
            · exact Int.le_max_left _ _
            · rename_i hne
              rcases hc with hc | hc
              · exact absurd hc hne
              · exact hc _ (List.mem_cons_self ..)
          omega
        constructor
        · show (x :: os).Pairwise _
          exact List.Pairwise.cons hge j1
        · intro hc y hy
          have hy : y = x ∨ y ∈ os := by simpa using hy
          rcases hy with rfl | hy
          · exact hsx hc
          · exact Int.le_trans (hsx hc) (hge y hy)
  exact (key b s u outs hb (fun _ => hi) hu).1

-- three messages after a clock message, the second one with an earlier timestamp than the first one
example : ∃ s, (Follower.init 0).run ([Event.clock 0 100000000].map Event.call) = .ok (s, []) ∧
    (s.run ([Event.message 100 104000000, .message 90 104000000, .message 150 105000000].map Event.call)).map Prod.snd =
      .ok [105200000, 105200000, 106800000] := by
  refine ⟨_, rfl, ?_⟩
  decide +kernel

/-- C49: if no later clock message takes less time than the first one, all messages are scheduled in the order of their
arrival. Partial: without this condition messages before and after a clock message can be scheduled in the wrong order, see
`C49_order_violated`. -/
theorem C49_order_partial (zero : Int) (h : List Event) (s : Follower) (outs : List Int) (hi : Ideal zero h)
    (hmin : ∀ l ∈ latencies h, (latencies h).headD 0 ≤ l)
    (hr : (Follower.init zero).run (h.map Event.call) = .ok (s, outs)) : outs.Pairwise (· ≤ ·) := by
  have key : ∀ (h : List Event) (m : Int) (s : Follower) (outs : List Int), Ideal zero h →
      (∀ l ∈ latencies h, m ≤ l) → (latencies h ≠ [] → (latencies h).head? = some m) →
      (Follower.init zero).run (h.map Event.call) = .ok (s, outs) →
      outs.Pairwise (· ≤ ·) ∧ (∀ x ∈ outs, x ≤ s.messageTime + s.securityOffset) ∧
      (∀ r : Int, ∀ t : Nat, zero < r → (∀ e ∈ h, e.sent ≤ t ∧ e.received ≤ r) →
        s.messageTime ≤ r ∨ (latencies h ≠ [] ∧ s.messageTime ≤ 32000 * t + m)) := by
    intro h
    induction h using List.reverseRecOn with
    | nil =>
      intro m s outs _ _ _ hr
      injection hr with hr
      injection hr with h1 h2
      subst h1 h2
      refine ⟨List.Pairwise.nil, ?_, fun r t hr _ => Or.inl ?_⟩
      · intro x hx; cases hx
      show zero ≤ r; omega
    | append_singleton a e ih =>
      intro m s outs hi hmin hhead hr
      obtain ⟨hia, hord, hpos, hclose⟩ := Ideal.snoc hi
      obtain ⟨t, o, os, h1, h2, h3⟩ := run_snoc hr
      have hsub : ∀ l ∈ latencies a, l ∈ latencies (a ++ [e]) := by
        intro l hl; rw [latencies_append]; simp [hl]
      have hhead' : latencies a ≠ [] → (latencies a).head? = some m := by
        intro hne
        have := hhead (by rw [latencies_append]; simp [hne])
        rwa [latencies_append, List.head?_append, Option.or_of_isSome (by simpa using hne)] at this
      obtain ⟨k1, k2, k3⟩ := ih m t o hia (fun l hl => hmin l (hsub l hl)) hhead' h1
      obtain ⟨iz, ij, i1, i2⟩ := ideal_state zero a t o hia h1
      subst h3
      have hlast := k3 e.received e.sent hpos hord
      cases e with
      | message sent r =>
        obtain ⟨x, h4, h5⟩ := call_schedule h2
        subst h5
        obtain ⟨e1, e2⟩ := Follower.scheduleMessage_ok h4
        have hlat : latencies (a ++ [.message sent r]) = latencies a := by rw [latencies_append, List.append_nil]
        -- the new schedule time
        have hmt : t.messageTime ≤ s.messageTime ∧ s.securityOffset = t.securityOffset ∧
            (∀ r' : Int, ∀ t' : Nat, zero < r' → (∀ e ∈ a ++ [.message sent r], e.sent ≤ t' ∧ e.received ≤ r') →
              s.messageTime ≤ r' ∨ (latencies a ≠ [] ∧ s.messageTime ≤ 32000 * t' + m)) := by
          have hso : s.securityOffset = t.securityOffset := by rw [e1]
          cases hl : lastClock none a with
          | none =>
            have hs : s.messageTime = r := by
              rw [e1]
              show (if t.clockTime ≠ t.zero then _ else _) = r
              rw [if_neg (by rw [i1 hl, iz]; simp)]
            have hnil := (latencies_nil_iff a).2 hl
            refine ⟨?_, hso, ?_⟩
            · rcases hlast with h | h
              · rw [hs]; exact h
              · exact absurd hnil h.1
            · intro r' t' _ hall
              left
              rw [hs]
              exact (hall (.message sent r) (by simp)).2
          | some c =>
            obtain ⟨hts, hp, m', hm', hct⟩ := i2 c hl
            have hne : latencies a ≠ [] := by
              intro h; rw [(latencies_nil_iff a).1 h] at hl; cases hl
            have hmm : m' = m := by
              have h1 := hmin m' (hsub _ hm'.1)
              have h2 := hm'.2 m (List.mem_of_head? (hhead' hne))
              omega
            subst hmm
            obtain ⟨r', hmem⟩ := lastClock_mem hl
            have hex : t.expected (BitVec.ofNat 16 sent) = 32000 * sent + m' := by
              rw [expected_of (t := sent) hts (hord _ hmem).1 (hclose c hl), hct]; omega
            have hs : s.messageTime = max t.messageTime (32000 * sent + m') := by
              rw [e1]
              show (if t.clockTime ≠ t.zero then _ else _) = _
              rw [if_pos (by omega), hex]
            refine ⟨by omega, hso, ?_⟩
            intro r' t' hz' hall
            have hk := k3 r' t' hz' (fun e he => hall e (by simp [he]))
            have he := (hall (.message sent r) (by simp)).1
            simp only [Event.sent] at he
            rcases hk with hk | hk
            · by_cases hc : s.messageTime ≤ r'
              · left; exact hc
              · right; exact ⟨hne, by omega⟩
            · right; exact ⟨hne, by omega⟩
        have hx : x = s.messageTime + s.securityOffset := e2
        refine ⟨?_, ?_, ?_⟩
        · rw [List.pairwise_append]
          refine ⟨k1, List.pairwise_singleton _ _, ?_⟩
          intro y hy z hz
          rw [List.mem_singleton] at hz
          have := k2 y hy
          have := hmt.1
          have := hmt.2.1
          omega
        · intro y hy
          rw [List.mem_append, List.mem_singleton] at hy
          rcases hy with hy | hy
          · have := k2 y hy
            have := hmt.1
            have := hmt.2.1
            omega
          · omega
        · rw [hlat]
          exact hmt.2.2
      | clock sent r =>
        obtain ⟨h4, h5⟩ := call_clock h2
        subst h5
        rw [List.append_nil]
        have hmono := C48_clock_monotone t s r _ ij h4
        have hmt : s.messageTime = r ∧ t.messageTime ≤ r := by
          cases hl : lastClock none a with
          | none =>
            rw [Follower.processClock_first (by rw [i1 hl, iz])] at h4
            injection h4 with h4
            subst h4
            refine ⟨rfl, ?_⟩
            rcases hlast with h | h
            · exact h
            · exact absurd ((latencies_nil_iff a).2 hl) h.1
          | some c =>
            obtain ⟨hts, hp, m', hm', hct⟩ := i2 c hl
            have hne : latencies a ≠ [] := by
              intro h; rw [(latencies_nil_iff a).1 h] at hl; cases hl
            have hmm : m' = m := by
              have h1 := hmin m' (hsub _ hm'.1)
              have h2 := hm'.2 m (List.mem_of_head? (hhead' hne))
              omega
            subst hmm
            obtain ⟨r', hmem⟩ := lastClock_mem hl
            have hex : t.expected (BitVec.ofNat 16 sent) = 32000 * sent + m' := by
              rw [expected_of (t := sent) hts (hord _ hmem).1 (hclose c hl), hct]; omega
            have hl2 : m' ≤ r - 32000 * sent := hmin _ (by rw [latencies_append]; simp)
            have := Follower.processClock_ok ij (by omega) h4
            rw [hex, if_neg (by omega)] at this
            constructor
            · rw [this]
            · simp only [Event.sent, Event.received] at hlast
              omega
        refine ⟨k1, ?_, ?_⟩
        · intro y hy
          have := k2 y hy
          omega
        · intro r' t' _ hall
          left
          rw [hmt.1]
          exact (hall (.clock sent r) (by simp)).2
  refine (key h ((latencies h).headD 0) s outs hi hmin ?_ hr).1
  intro hne
  cases hl : latencies h with
  | nil => exact absurd hl hne
  | cons x l => rfl

-- seven messages for which the condition holds
example : Ideal 0 steady ∧ (∀ l ∈ latencies steady, (latencies steady).headD 0 ≤ l) ∧
    ((Follower.init 0).run (steady.map Event.call)).map Prod.snd = .ok [105200000, 206600000, 304600000, 305200000] := by
  decide +kernel

/-- C49: of two messages that follow the same clock message, the second one is scheduled later than the first one by at most
the difference of their timestamps, and by exactly that if and only if they have the same timestamp or the first one is scheduled at
its ideal time. Partial: the first one need not be, see `C49_spacing_violated`. -/
theorem C49_spacing_partial (zero : Int) (h : List Event) (t1 t2 : Nat) (r1 r2 : Int) (s u : Follower) (o : List Int)
    (x1 x2 m : Int) (hi : Ideal zero (h ++ [.message t1 r1] ++ [.message t2 r2]))
    (hr : (Follower.init zero).run (h.map Event.call) = .ok (s, o)) (hm : IsMin m (latencies h))
    (hu : s.run ([Event.message t1 r1, .message t2 r2].map Event.call) = .ok (u, [x1, x2])) :
    0 ≤ x2 - x1 ∧ x2 - x1 ≤ 32000 * ((t2 : Int) - t1) ∧
    (x2 - x1 = 32000 * ((t2 : Int) - t1) ↔ t1 = t2 ∨ x1 = 32000 * t1 + m + s.securityOffset) := by
  obtain ⟨hi1, ho2, hp2, hc2⟩ := Ideal.snoc hi
  obtain ⟨hia, ho1, hp1, hc1⟩ := Ideal.snoc hi1
  obtain ⟨iz, ij, i1, i2⟩ := ideal_state zero h s o hia hr
  cases hl : lastClock none h with
  | none => rw [(latencies_nil_iff h).2 hl] at hm; exact absurd hm.1 (by simp)
  | some c =>
    obtain ⟨hts, hp, m', hm', hct⟩ := i2 c hl
    have : m = m' := by
      have h1 := hm.2 m' hm'.1
      have h2 := hm'.2 m hm.1
      omega
    subst this
    obtain ⟨r', hmem⟩ := lastClock_mem hl
    obtain ⟨a, oa, ob, h1, h2, h3⟩ := run_cons hu
    obtain ⟨y1, h4, h5⟩ := call_schedule h1
    obtain ⟨b, oc, od, h6, h7, h8⟩ := run_cons h2
    obtain ⟨y2, h9, h10⟩ := call_schedule h6
    injection h7 with h7
    injection h7 with h11 h12
    subst h5 h10 h8 h12
    simp only [List.cons_append, List.nil_append, List.cons.injEq, and_true] at h3
    obtain ⟨rfl, rfl⟩ := h3
    obtain ⟨e1, e2⟩ := Follower.scheduleMessage_ok h4
    obtain ⟨f1, f2⟩ := Follower.scheduleMessage_ok h9
    have hex1 : s.expected (BitVec.ofNat 16 t1) = 32000 * t1 + m := by
      rw [expected_of (t := t1) hts (ho1 _ hmem).1 (hc1 c hl), hct]; omega
    have hle : t1 ≤ t2 := (ho2 (.message t1 r1) (by simp)).1
    have ha : a.clockTs = s.clockTs ∧ a.clockTime = s.clockTime ∧ a.zero = s.zero ∧ a.securityOffset = s.securityOffset := by
      rw [e1]; exact ⟨rfl, rfl, rfl, rfl⟩
    have hex2 : a.expected (BitVec.ofNat 16 t2) = 32000 * t2 + m := by
      have hc2' := hc2 c (by rw [lastClock_append]; exact hl)
      rw [expected_of (c := c) (t := t2) (ha.1.trans hts) (Nat.le_trans (ho1 _ hmem).1 hle) hc2', ha.2.1, hct]
      omega
    have hx1 : x1 = max s.messageTime (32000 * t1 + m) + s.securityOffset ∧
        a.messageTime = max s.messageTime (32000 * t1 + m) := by
      have : a.messageTime = max s.messageTime (32000 * t1 + m) := by
        rw [e1]
        show (if s.clockTime ≠ s.zero then _ else _) = _
        rw [if_pos (by omega), hex1]
      refine ⟨by rw [e2, this, ha.2.2.2], this⟩
    have hx2 : x2 = max a.messageTime (32000 * t2 + m) + s.securityOffset := by
      have : b.messageTime = max a.messageTime (32000 * t2 + m) := by
        rw [f1]
        show (if a.clockTime ≠ a.zero then _ else _) = _
        rw [if_pos (by omega), hex2]
      have hb : b.securityOffset = a.securityOffset := by rw [f1]
      rw [f2, this, hb, ha.2.2.2]
    omega

example := C49_spacing_partial 0 [.clock 0 100000000] 100 120 104000000 104100000 _ _ _ 105200000 105840000 100000000
  (by decide +kernel) rfl ⟨(by decide), (by decide)⟩ rfl

/-- C49: the history of an ideal sender for which a message is scheduled before one that was sent and received earlier. -/
theorem C49_order_violated : Ideal 0 faster ∧
    ((Follower.init 0).run (faster.map Event.call)).map Prod.snd = .ok [1102000000, 1101320000] := by
  decide +kernel

/-- C49: the history of an ideal sender for which two messages sent 1 ms apart after the same clock message are scheduled at
the same time, since the clock message took 5 ms longer than the one before. -/
theorem C49_spacing_violated : Ideal 0 slower ∧
    ((Follower.init 0).run (slower.map Event.call)).map Prod.snd = .ok [211000000, 211000000] := by
  decide +kernel

end Midi.Jr
