import Verif.Props.Jitter

/-!
# Property C91: the clock follower depends on differences only
-/

namespace Midi.Jr
open Spec Spec.Jr

/-! ## The counter of the sender -/

theorem ticks_ahead (a b k : U16) : ticksBetween (a + k) (b + k) = ticksBetween a b := by
  have h1 := (C47_difference (a + k) (b + k)).1
  have h2 := (C47_difference a b).1
  rw [h1, h2, BitVec.toNat_add, BitVec.toNat_add]
  have := a.isLt
  have := b.isLt
  have := k.isLt
  omega

/-- Two followers that differ in the last timestamp at most: by `k`, unless it is not used. -/
def Ahead (k : U16) (s t : Follower) : Prop :=
  t = { s with clockTs := t.clockTs } ∧ (s.clockTime ≠ s.zero → t.clockTs = s.clockTs + k)

/-- Both computations fail in the same way, or both succeed with related results. -/
def Both {α β : Type} (R : α → β → Prop) : Except Fault α → Except Fault β → Prop
  | .ok a, .ok b => R a b
  | .error e, .error f => e = f
  | _, _ => False

theorem Both.bind {α β γ δ : Type} {R : α → β → Prop} {S : γ → δ → Prop} {x : Except Fault α} {y : Except Fault β}
    {f : α → Except Fault γ} {g : β → Except Fault δ} (h : Both R x y) (hf : ∀ a b, R a b → Both S (f a) (g b)) :
    Both S (x >>= f) (y >>= g) := by
  cases x <;> cases y
  · exact h
  · exact h.elim
  · exact h.elim
  · exact hf _ _ h

theorem both_refl {α : Type} {R : α → α → Prop} (hR : ∀ a, R a a) (x : Except Fault α) : Both R x x := by
  cases x
  · rfl
  · exact hR _

theorem updateStats_ahead {k : U16} {s t : Follower} (h : Ahead k s t) (j : Int) :
    Both (Ahead k) (s.updateStats j) (t.updateStats j) := by
  have recalc : ∀ (s : Follower) (c : U16), (s.clockTime ≠ s.zero → c = s.clockTs + k) →
      Both (Ahead k) s.recalcSecurityOffset (Follower.recalcSecurityOffset { s with clockTs := c }) := by
    intro s c h6
    unfold Follower.recalcSecurityOffset
    refine (both_refl (R := Eq) (fun _ => rfl) _).bind ?_
    rintro v _ rfl
    by_cases hc : s.securityOffset < v.tdiv 10
    · simp only [if_pos hc]; exact ⟨rfl, h6⟩
    · simp only [if_neg hc]; exact ⟨rfl, h6⟩
  obtain ⟨h, h6⟩ := h
  generalize t.clockTs = c at h h6
  subst h
  unfold Follower.updateStats
  by_cases hj : j < 0
  · simp only [if_pos hj]
    refine (both_refl (R := Eq) (fun _ => rfl) _).bind ?_
    rintro v _ rfl
    exact recalc { s with jitter := v } c h6
  · simp only [if_neg hj]
    by_cases hk : s.jitter < j
    · simp only [if_pos hk]; exact recalc { s with jitter := j } c h6
    · simp only [if_neg hk]; exact ⟨rfl, h6⟩

theorem call_ahead {k : U16} {s t : Follower} (h : Ahead k s t) (c : Call) :
    Both (fun p q => Ahead k p.1 q.1 ∧ p.2 = q.2) (s.call c) (t.call (ahead k c)) := by
  obtain ⟨h, h6⟩ := h
  generalize t.clockTs = x at h h6
  subst h
  cases c with
  | clock r ts =>
    refine Both.bind (R := Ahead k) ?_ (fun a b hab => ⟨hab, rfl⟩)
    unfold Follower.processClock
    by_cases hz : s.clockTime = s.zero
    · simp only [if_pos hz]; exact ⟨rfl, fun _ => rfl⟩
    · simp only [if_neg hz]
      rw [h6 hz, ticks_ahead]
      refine (both_refl (R := Eq) (fun _ => rfl) _).bind ?_
      rintro e _ rfl
      refine (both_refl (R := Eq) (fun _ => rfl) _).bind ?_
      rintro j _ rfl
      by_cases hr : r < e
      · simp only [if_pos hr]
        by_cases hm : s.messageTime < r
        · simp only [if_pos hm]; exact updateStats_ahead ⟨rfl, fun _ => rfl⟩ _
        · simp only [if_neg hm]; exact updateStats_ahead ⟨rfl, fun _ => rfl⟩ _
      · simp only [if_neg hr]; exact updateStats_ahead ⟨rfl, fun _ => rfl⟩ _
  | schedule r ts =>
    refine Both.bind (R := fun p q => Ahead k p.1 q.1 ∧ p.2 = q.2) ?_ (fun a b hab => ⟨hab.1, by rw [hab.2]⟩)
    unfold Follower.scheduleMessage
    by_cases hz : s.clockTime = s.zero
    · rw [if_neg (by intro h; exact h hz), if_neg (by intro h; exact h hz)]
      refine (both_refl (R := Eq) (fun _ => rfl) _).bind ?_
      rintro x _ rfl
      exact ⟨⟨rfl, fun hn => absurd hz hn⟩, rfl⟩
    · rw [if_pos hz, if_pos hz]
      simp only
      rw [h6 hz, ticks_ahead]
      refine (both_refl (R := Eq) (fun _ => rfl) _).bind ?_
      rintro e _ rfl
      by_cases hm : s.messageTime < e
      · simp only [if_pos hm]
        refine (both_refl (R := Eq) (fun _ => rfl) _).bind ?_
        rintro x _ rfl
        exact ⟨⟨rfl, fun _ => rfl⟩, rfl⟩
      · simp only [if_neg hm]
        refine (both_refl (R := Eq) (fun _ => rfl) _).bind ?_
        rintro x _ rfl
        exact ⟨⟨rfl, fun _ => rfl⟩, rfl⟩
  | setOffset o =>
    refine Both.bind (R := Ahead k) ?_ (fun a b hab => ⟨hab, rfl⟩)
    unfold Follower.setSecurityOffset
    refine (both_refl (R := Eq) (fun _ => rfl) _).bind ?_
    rintro x _ -
    exact ⟨rfl, h6⟩
  | reset => exact ⟨⟨rfl, fun hn => absurd rfl hn⟩, rfl⟩

theorem run_ahead {k : U16} (calls : List Call) : ∀ {s t : Follower}, Ahead k s t →
    Both (fun p q => Ahead k p.1 q.1 ∧ p.2 = q.2) (s.run calls) (t.run (calls.map (ahead k))) := by
  induction calls with
  | nil => intro s t h; exact ⟨h, rfl⟩
  | cons c cs ih =>
    intro s t h
    rw [List.map_cons, Follower.run, Follower.run]
    refine (call_ahead h c).bind ?_
    rintro ⟨a, o⟩ ⟨b, o'⟩ ⟨hab, rfl⟩
    refine (ih hab).bind ?_
    rintro ⟨x, os⟩ ⟨y, os'⟩ ⟨hxy, rfl⟩
    exact ⟨hxy, rfl⟩

/-- C91: where the counter of the sender starts makes no difference. Timestamps that are all ahead by the same number of ticks, modulo
2^16, lead to the same times, the same jitter and the same security offset, and to undefined behaviour only if the others do. -/
theorem C91_sender_counter (zero : Int) (k : U16) (calls : List Call) :
    visible ((Follower.init zero).run (calls.map (ahead k))) = visible ((Follower.init zero).run calls) := by
  have h := run_ahead calls (k := k) (s := Follower.init zero) (t := Follower.init zero)
    ⟨rfl, fun hn => absurd rfl hn⟩
  revert h
  generalize (Follower.init zero).run calls = x
  generalize (Follower.init zero).run (calls.map (ahead k)) = y
  intro h
  cases x <;> cases y
  · rw [show _ = _ from h]
  · exact h.elim
  · exact h.elim
  · obtain ⟨h, e⟩ := h
    simp only [visible, Except.map, e]
    rw [h.1]

/-- Timestamps wrap within these calls, and the result is the same as for those that do not. -/
example : visible ((Follower.init 0).run ([.clock 100000000 0, .schedule 101000000 31].map (ahead 0xFFF0))) =
    .ok (0, 2000000, [102992000]) := by decide +kernel

/-! ## The system clock -/

/-- The same state at a time that is `d` later. -/
def shift (d : Int) (s : Follower) : Follower :=
  { s with zero := s.zero + d, clockTime := s.clockTime + d, messageTime := s.messageTime + d }

theorem call_shift {d : Int} {s t u : Follower} {c : Call} {o p : List Int} (hj : 0 ≤ s.jitter)
    (h : s.call c = .ok (t, o)) (h' : (shift d s).call (delayed d c) = .ok (u, p)) :
    u = shift d t ∧ p = o.map (· + d) := by
  have hz : (shift d s).clockTime = (shift d s).zero ↔ s.clockTime = s.zero := by
    show s.clockTime + d = s.zero + d ↔ _
    omega
  have he : ∀ ts, (shift d s).expected ts = s.expected ts + d := by
    intro ts
    show s.clockTime + d + 32000 * ticksBetween ts s.clockTs = s.clockTime + 32000 * ticksBetween ts s.clockTs + d
    omega
  cases c with
  | clock r ts =>
    obtain ⟨h1, rfl⟩ := call_clock h
    obtain ⟨h2, rfl⟩ := call_clock (s := shift d s) (r := r + d) (ts := ts) h'
    refine ⟨?_, rfl⟩
    clear h h'
    rename' h1 => h, h2 => h'
    by_cases h0 : s.clockTime = s.zero
    · rw [Follower.processClock_first h0] at h
      rw [Follower.processClock_first (hz.2 h0)] at h'
      injection h with h
      injection h' with h'
      rw [← h, ← h']
      rfl
    · rw [Follower.processClock_ok (by exact hj) (fun e => h0 (hz.1 e)) h', Follower.processClock_ok hj h0 h]
      rw [he]
      have e1 : r + d - (s.expected ts + d) = r - s.expected ts := by omega
      rw [e1]
      simp only [shift, Follower.mk.injEq, true_and, and_true]
      refine ⟨by omega, ?_⟩
      by_cases hr : r < s.expected ts
      · rw [if_pos hr, if_pos (by omega)]; omega
      · rw [if_neg hr, if_neg (by omega)]
  | schedule r ts =>
    obtain ⟨x, h1, rfl⟩ := call_schedule h
    obtain ⟨y, h2, rfl⟩ := call_schedule (s := shift d s) (r := r + d) (ts := ts) h'
    obtain ⟨a1, a2⟩ := Follower.scheduleMessage_ok h1
    obtain ⟨b1, b2⟩ := Follower.scheduleMessage_ok h2
    have hu : u = shift d t := by
      rw [a1, b1, he]
      by_cases h0 : s.clockTime = s.zero
      · rw [if_neg (by simpa using hz.2 h0), if_neg (by simpa using h0)]; rfl
      · rw [if_pos (fun e => h0 (hz.1 e)), if_pos h0]
        simp only [shift, Follower.mk.injEq, true_and, and_true]
        omega
    refine ⟨hu, ?_⟩
    rw [b2, a2, hu]
    show [t.messageTime + d + t.securityOffset] = [t.messageTime + t.securityOffset + d]
    congr 1
    omega
  | setOffset x =>
    obtain ⟨-, rfl, rfl⟩ := call_setOffset h
    obtain ⟨-, rfl, rfl⟩ := call_setOffset h'
    exact ⟨rfl, rfl⟩
  | reset =>
    obtain ⟨rfl, rfl⟩ := call_reset h
    obtain ⟨rfl, rfl⟩ := call_reset h'
    exact ⟨rfl, rfl⟩

/-- C91: what the system clock shows makes no difference. If the follower is constructed and called later by `d`, all messages are
scheduled later by `d`, and the jitter and the security offset are the same, unless one of the two sequences of calls overflows. -/
theorem C91_system_clock (zero d : Int) (calls : List Call) (s t : Follower) (outs outs' : List Int)
    (h : (Follower.init zero).run calls = .ok (s, outs))
    (h' : (Follower.init (zero + d)).run (calls.map (delayed d)) = .ok (t, outs')) :
    outs' = outs.map (· + d) ∧ t.jitter = s.jitter ∧ t.securityOffset = s.securityOffset := by
  have key : ∀ (calls : List Call) (x s t : Follower) (outs outs' : List Int), 0 ≤ x.jitter → 0 ≤ x.securityOffset →
      x.run calls = .ok (s, outs) → (shift d x).run (calls.map (delayed d)) = .ok (t, outs') →
      t = shift d s ∧ outs' = outs.map (· + d) := by
    intro calls
    induction calls with
    | nil =>
      intro x s t outs outs' _ _ h h'
      injection h with h
      injection h with h1 h2
      injection h' with h'
      injection h' with h3 h4
      subst h1 h2 h3 h4
      exact ⟨rfl, rfl⟩
    | cons c cs ih =>
      intro x s t outs outs' hj hs h h'
      obtain ⟨a, o, os, a1, a2, rfl⟩ := run_cons h
      obtain ⟨b, p, ps, b1, b2, rfl⟩ := run_cons h'
      obtain ⟨rfl, rfl⟩ := call_shift hj a1 b1
      obtain ⟨j1, j2, -⟩ := call_nonneg a1 hj hs
      obtain ⟨e1, e2⟩ := ih a s t os ps j1 j2 a2 b2
      exact ⟨e1, by rw [e2, List.map_append]⟩
  obtain ⟨rfl, e⟩ := key calls (Follower.init zero) s t outs outs' (init_nonneg _).1 (init_nonneg _).2 h h'
  exact ⟨e, rfl, rfl⟩

/-- C91: for monotone receive times, and within the time span and number of clock messages of C48, neither of the two sequences of calls overflows. -/
theorem C91_system_clock_defined (zero d span : Int) (calls : List Call) (hz1 : -2 ^ 62 ≤ zero) (hz2 : zero ≤ 2 ^ 62)
    (hd1 : -2 ^ 62 ≤ zero + d) (hd2 : zero + d ≤ 2 ^ 62) (hmono : (zero :: times calls).Pairwise (· ≤ ·))
    (hspan0 : 0 ≤ span) (hspan : ∀ t ∈ times calls, t ≤ zero + span)
    (hclocks : span + ((clocks calls : Int) - 1) * 2097120000 ≤ 768614336404564650)
    (hset : ∀ o, Call.setOffset o ∈ calls → 0 ≤ o ∧ o ≤ 2 ^ 60) :
    ∃ s outs t, (Follower.init zero).run calls = .ok (s, outs) ∧
      (Follower.init (zero + d)).run (calls.map (delayed d)) = .ok (t, outs.map (· + d)) := by
  obtain ⟨s, outs, h⟩ := C48_no_fault_partial zero span calls hz1 hz2 hspan0 hmono hspan hclocks hset
  have e1 : times (calls.map (delayed d)) = (times calls).map (· + d) := by
    unfold times
    rw [List.filterMap_map, List.map_filterMap]
    congr 1
    funext c
    cases c <;> rfl
  have e2 : clocks (calls.map (delayed d)) = clocks calls := by
    unfold clocks
    rw [List.countP_map]
    congr 1
    funext c
    cases c <;> rfl
  obtain ⟨t, outs', h'⟩ := C48_no_fault_partial (zero + d) span (calls.map (delayed d)) hd1 hd2 hspan0
    (by
      rw [e1, ← List.map_cons (f := (· + d)), List.pairwise_map]
      exact hmono.imp (by intro a b h; omega))
    (by
      rw [e1]
      intro t ht
      obtain ⟨u, hu, rfl⟩ := List.mem_map.1 ht
      have := hspan u hu
      omega)
    (by rw [e2]; exact hclocks)
    (by
      intro o ho
      obtain ⟨c, hc, e⟩ := List.mem_map.1 ho
      cases c with
      | setOffset x => injection e with e; subst e; exact hset _ hc
      | clock r ts => cases e
      | schedule r ts => cases e
      | reset => cases e)
  obtain ⟨e, -⟩ := C91_system_clock zero d calls s t outs outs' h h'
  exact ⟨s, outs, t, h, by rw [h', e]⟩

example : ∃ s t outs outs', (Follower.init 0).run [.clock 100000000 7, .schedule 101000000 38] = .ok (s, outs) ∧
    (Follower.init (0 + 5)).run ([.clock 100000000 7, .schedule 101000000 38].map (delayed 5)) = .ok (t, outs') ∧
    outs = [102992000] := ⟨_, _, _, _, rfl, rfl, rfl⟩

/-! ## The receive times of messages -/

/-- Once there is a reference, and if clock messages are received after the follower was constructed, there is one from then on. -/
theorem call_reference {s t : Follower} {c : Call} {o : List Int} (h : s.call c = .ok (t, o)) (hj : 0 ≤ s.jitter)
    (hc : ∀ r ts, c = .clock r ts → s.zero < r) (hr : c ≠ .reset) :
    t.zero = s.zero ∧ (s.zero < s.clockTime → s.zero < t.clockTime) ∧
      ((∃ r ts, c = .clock r ts) → s.zero ≤ s.clockTime → s.zero < t.clockTime) ∧
      (s.zero ≤ s.clockTime → s.zero ≤ t.clockTime) := by
  cases c with
  | clock r ts =>
    have hr := hc r ts rfl
    obtain ⟨h, -⟩ := call_clock h
    by_cases hz : s.clockTime = s.zero
    · rw [Follower.processClock_first hz] at h
      injection h with h
      subst h
      refine ⟨rfl, fun _ => hr, fun _ _ => hr, fun _ => by show s.zero ≤ r; omega⟩
    · rw [Follower.processClock_ok hj hz h]
      have := s.expected_ge ts
      refine ⟨rfl, ?_, ?_, ?_⟩
      · intro h0; show s.zero < min r (s.expected ts); omega
      · intro _ h0; show s.zero < min r (s.expected ts); omega
      · intro h0; show s.zero ≤ min r (s.expected ts); omega
  | schedule r ts =>
    obtain ⟨x, h, -⟩ := call_schedule h
    rw [(Follower.scheduleMessage_ok h).1]
    exact ⟨rfl, id, (by rintro ⟨_, _, h⟩; cases h), id⟩
  | setOffset x =>
    obtain ⟨h1, h2, -⟩ := call_setOffset h
    subst h2
    exact ⟨rfl, id, (by rintro ⟨_, _, h⟩; cases h), id⟩
  | reset => exact absurd rfl hr

theorem schedule_ignores (s : Follower) (r r' : Int) (ts : U16) (h : s.clockTime ≠ s.zero) :
    s.call (.schedule r ts) = s.call (.schedule r' ts) := by
  show (do let (s, t) ← s.scheduleMessage r ts; return (s, [t])) = (do let (s, t) ← s.scheduleMessage r' ts; return (s, [t]))
  have : s.scheduleMessage r ts = s.scheduleMessage r' ts := by
    unfold Follower.scheduleMessage
    rw [if_pos h, if_pos h]
  rw [this]

theorem run_otherTimes {a b : List Call} (hab : OtherReceiveTimes a b) : ∀ s : Follower, 0 ≤ s.jitter → 0 ≤ s.securityOffset →
    s.zero < s.clockTime → (∀ r ts, Call.clock r ts ∈ a → s.zero < r) → s.run a = s.run b := by
  induction hab with
  | nil => intros; rfl
  | message r r' ts _ ih =>
    intro s hj hs hz hc
    rw [Follower.run, Follower.run, schedule_ignores s r r' ts (by omega)]
    cases e : s.call (.schedule r' ts) with
    | error e => rfl
    | ok p =>
      obtain ⟨t, o⟩ := p
      obtain ⟨j1, j2, j3⟩ := call_nonneg e hj hs
      obtain ⟨k1, k2, -⟩ := call_reference e hj (by intro _ _ h; cases h) (by intro h; cases h)
      simp only [ok_bind]
      rw [ih t j1 j2 (by rw [k1]; exact k2 hz) (by intro r ts h; rw [k1]; exact hc r ts (List.mem_cons_of_mem _ h))]
  | clock r ts _ ih =>
    intro s hj hs hz hc
    rw [Follower.run, Follower.run]
    cases e : s.call (.clock r ts) with
    | error e => rfl
    | ok p =>
      obtain ⟨t, o⟩ := p
      obtain ⟨j1, j2, j3⟩ := call_nonneg e hj hs
      obtain ⟨k1, k2, -⟩ := call_reference e hj
        (by intro r' ts' h; injection h with h1 h2; subst h1; exact hc _ _ (List.mem_cons_self ..)) (by intro h; cases h)
      simp only [ok_bind]
      rw [ih t j1 j2 (by rw [k1]; exact k2 hz) (by intro r ts h; rw [k1]; exact hc r ts (List.mem_cons_of_mem _ h))]
  | offset x _ ih =>
    intro s hj hs hz hc
    rw [Follower.run, Follower.run]
    cases e : s.call (.setOffset x) with
    | error e => rfl
    | ok p =>
      obtain ⟨t, o⟩ := p
      obtain ⟨j1, j2, j3⟩ := call_nonneg e hj hs
      obtain ⟨k1, k2, -⟩ := call_reference e hj (by intro _ _ h; cases h) (by intro h; cases h)
      simp only [ok_bind]
      rw [ih t j1 j2 (by rw [k1]; exact k2 hz) (by intro r ts h; rw [k1]; exact hc r ts (List.mem_cons_of_mem _ h))]

theorem run_zero {calls : List Call} : ∀ {s t : Follower} {outs : List Int}, 0 ≤ s.jitter → 0 ≤ s.securityOffset →
    s.zero ≤ s.clockTime → (∀ r ts, Call.clock r ts ∈ calls → s.zero < r) → s.run calls = .ok (t, outs) →
    0 ≤ t.jitter ∧ 0 ≤ t.securityOffset ∧ t.zero = s.zero ∧ s.zero ≤ t.clockTime := by
  induction calls with
  | nil =>
    intro s t outs hj hs hz _ h
    injection h with h
    injection h with h _
    subst h
    exact ⟨hj, hs, rfl, hz⟩
  | cons c cs ih =>
    intro s t outs hj hs hz hc h
    obtain ⟨a, o, os, a1, a2, -⟩ := run_cons h
    obtain ⟨j1, j2, j3⟩ := call_nonneg a1 hj hs
    have hza : s.zero ≤ a.clockTime := by
      by_cases hr : c = .reset
      · subst hr
        obtain ⟨rfl, -⟩ := call_reset a1
        exact Int.le_refl _
      · exact (call_reference a1 hj (by intro r ts h; subst h; exact hc r ts (List.mem_cons_self ..)) hr).2.2.2 hz
    obtain ⟨b1, b2, b3, b4⟩ := ih j1 j2 (by rw [j3]; exact hza)
      (by intro r ts h; rw [j3]; exact hc r ts (List.mem_cons_of_mem _ h)) a2
    exact ⟨b1, b2, by rw [b3, j3], by rw [← j3]; exact b4⟩

/-- C91: when messages are received makes no difference, only clock messages do. After a clock message messages with the same timestamps
are scheduled at the same times, however long they take to arrive. (Clock messages are received after the follower was constructed.) -/
theorem C91_receive_times (zero : Int) (before a b : List Call) (r : Int) (ts : U16) (hab : OtherReceiveTimes a b)
    (hc : ∀ r' ts', Call.clock r' ts' ∈ before ++ .clock r ts :: a → zero < r') :
    (Follower.init zero).run (before ++ .clock r ts :: a) = (Follower.init zero).run (before ++ .clock r ts :: b) := by
  rw [run_append, run_append]
  cases e : (Follower.init zero).run before with
  | error e => rfl
  | ok p =>
    obtain ⟨s, o⟩ := p
    obtain ⟨j1, j2, j3, j4⟩ := run_zero (init_nonneg _).1 (init_nonneg _).2 (Int.le_refl zero)
      (fun r' ts' h => hc r' ts' (List.mem_append_left _ h)) e
    have j3 : s.zero = zero := j3
    have j4 : zero ≤ s.clockTime := j4
    simp only [ok_bind]
    suffices h : s.run (.clock r ts :: a) = s.run (.clock r ts :: b) by rw [h]
    rw [Follower.run, Follower.run]
    cases e2 : s.call (.clock r ts) with
    | error e => rfl
    | ok p =>
      obtain ⟨t, o⟩ := p
      obtain ⟨k1, k2, k3⟩ := call_nonneg e2 j1 j2
      obtain ⟨-, -, l3, -⟩ := call_reference e2 j1
        (by intro r' ts' h; injection h with h1 h2; subst h1; rw [j3]; exact hc r ts (by simp)) (by intro h; cases h)
      have l3 := l3 ⟨r, ts, rfl⟩ (by omega)
      simp only [ok_bind]
      rw [run_otherTimes hab t k1 k2 (by omega)
        (by intro r' ts' h; rw [k3, j3]; exact hc r' ts' (by simp [h]))]

example : OtherReceiveTimes [.schedule 101000000 31, .clock 200000000 3125, .schedule 205000000 3200]
    [.schedule 109000000 31, .clock 200000000 3125, .schedule 203000000 3200] :=
  .message _ _ _ (.clock _ _ (.message _ _ _ .nil))

/-- Before the first clock message the times messages are received do matter. -/
theorem C91_before_clock (zero r : Int) (ts : U16) (h : -2 ^ 62 ≤ r ∧ r ≤ 2 ^ 62) :
    visible ((Follower.init zero).run [.schedule r ts]) = .ok (0, 2000000, [r + 2000000]) := by
  have : (Follower.init zero).scheduleMessage r ts = .ok ({ Follower.init zero with messageTime := r }, r + 2000000) := by
    unfold Follower.scheduleMessage
    rw [if_neg (by intro h; exact h rfl)]
    simp only [Follower.init]
    rw [chk64_pos (by omega) (by omega)]
    rfl
  rw [Follower.run, schedule_eq this]
  rfl

example := C91_before_clock 0 100000000 7 (by norm_num)

end Midi.Jr
