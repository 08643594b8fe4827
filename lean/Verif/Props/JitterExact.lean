import Verif.Props.JitterSchedule
import Verif.Props.JitterIdeal

/-!
# C49 exactly: when messages of an ideal sender are scheduled
-/

namespace Midi.Jr
open Spec.Jr

theorem plan_append (a : List Event) (e : Event) : ∀ p : Plan,
    p.run (a ++ [e]) = (((p.run a).1.step e).1, (p.run a).2 ++ ((p.run a).1.step e).2) := by
  induction a with
  | nil => intro p; simp [Plan.run]
  | cons x a ih => intro p; simp [Plan.run, ih]

/-- The plan agrees with the follower. -/
theorem plan_state (zero : Int) (h : List Event) (s : Follower) (outs : List Int) (hi : Ideal zero h)
    (hr : (Follower.init zero).run (h.map Event.call) = .ok (s, outs)) :
    (Plan.run ⟨none, zero⟩ h).2 = outs ∧ (Plan.run ⟨none, zero⟩ h).1.floor = s.messageTime ∧
    (lastClock none h = none → (Plan.run ⟨none, zero⟩ h).1.took = none ∧ s.jitter = 0) ∧
    (∀ c, lastClock none h = some c → ∃ lo, (Plan.run ⟨none, zero⟩ h).1.took = some (lo, lo + s.jitter) ∧ s.clockTime = 32000 * c + lo) := by
  induction h using List.reverseRecOn generalizing s outs with
  | nil =>
    injection hr with hr
    injection hr with h1 h2
    subst h1 h2
    exact ⟨rfl, rfl, fun _ => ⟨rfl, rfl⟩, fun c hc => by cases hc⟩
  | append_singleton a e ih =>
    obtain ⟨hia, hord, hpos, hclose⟩ := Ideal.snoc hi
    obtain ⟨t, o, os, h1, h2, rfl⟩ := run_snoc hr
    obtain ⟨j1, j2, j3, j4⟩ := ih t o hia h1
    obtain ⟨iz, ij, i1, i2⟩ := ideal_state zero a t o hia h1
    have hoff : t.securityOffset = max 2000000 (t.jitter * 12 / 10) := by
      refine C48_offset_derived zero _ t o ?_ h1
      intro c hc o' he
      obtain ⟨e, -, rfl⟩ := List.mem_map.1 hc
      cases e <;> cases he
    rw [plan_append, lastClock_append]
    generalize Plan.run ⟨none, zero⟩ a = pl at *
    obtain ⟨⟨took, floor⟩, os'⟩ := pl
    simp only at j1 j2 j3 j4
    subst j1 j2
    cases e with
    | message sent r =>
      obtain ⟨x, h3, rfl⟩ := call_schedule h2
      obtain ⟨e1, e2⟩ := Follower.scheduleMessage_ok h3
      cases hl : lastClock none a with
      | none =>
        obtain ⟨rfl, hj⟩ := j3 hl
        have hz : ¬ t.clockTime ≠ t.zero := by rw [i1 hl, iz]; simp
        rw [if_neg hz] at e1
        subst e1
        subst e2
        refine ⟨?_, rfl, fun _ => ⟨rfl, hj⟩, fun c hc => by simp [Event.isClock] at hc⟩
        show _ ++ [r + 2000000] = _ ++ [r + t.securityOffset]
        rw [hoff, hj]; rfl
      | some c =>
        obtain ⟨lo, rfl, hct⟩ := j4 c hl
        obtain ⟨hts, hp, -⟩ := i2 c hl
        obtain ⟨r', hmem⟩ := lastClock_mem hl
        have hcs : c ≤ sent := (hord _ hmem).1
        have hex : t.expected (BitVec.ofNat 16 sent) = 32000 * sent + lo := by
          rw [expected_of hts hcs (hclose c hl), hct]; omega
        rw [if_pos (by omega), hex] at e1
        subst e1
        subst e2
        refine ⟨?_, rfl, fun hc => by simp [Event.isClock] at hc, fun c' hc => ?_⟩
        · show _ ++ [max t.messageTime (32000 * (sent : Int) + lo) + max 2000000 ((lo + t.jitter - lo) * 12 / 10)] =
            _ ++ [max t.messageTime (32000 * (sent : Int) + lo) + t.securityOffset]
          rw [hoff, show lo + t.jitter - lo = t.jitter by omega]
        · simp only [Event.isClock, Bool.false_eq_true, if_false] at hc
          obtain rfl : c = c' := by simpa using hc
          exact ⟨lo, rfl, hct⟩
    | clock sent r =>
      obtain ⟨h3, rfl⟩ := call_clock h2
      cases hl : lastClock none a with
      | none =>
        obtain ⟨rfl, hj⟩ := j3 hl
        have hz : t.clockTime = t.zero := by rw [i1 hl, iz]
        rw [Follower.processClock_first hz] at h3
        injection h3 with h3
        subst h3
        refine ⟨rfl, rfl, fun h => by simp [Event.isClock] at h, fun c hc => ?_⟩
        obtain rfl : sent = c := by simpa [Event.isClock, Event.sent] using hc
        refine ⟨r - 32000 * sent, ?_, ?_⟩
        · show some (r - 32000 * (sent : Int), r - 32000 * (sent : Int)) = some (_, _ + t.jitter)
          rw [hj, Int.add_zero]
        · show r = _; omega
      | some c =>
        obtain ⟨lo, rfl, hct⟩ := j4 c hl
        obtain ⟨hts, hp, -⟩ := i2 c hl
        obtain ⟨r', hmem⟩ := lastClock_mem hl
        have hcs : c ≤ sent := (hord _ hmem).1
        have hex : t.expected (BitVec.ofNat 16 sent) = 32000 * sent + lo := by
          rw [expected_of hts hcs (hclose c hl), hct]; omega
        have := Follower.processClock_ok ij (by omega) h3
        rw [hex] at this
        subst this
        refine ⟨rfl, ?_, fun h => by simp [Event.isClock] at h, fun c' hc => ?_⟩
        · show (if r - 32000 * (sent : Int) < lo then max t.messageTime r else r) = if r < 32000 * (sent : Int) + lo then max t.messageTime r else r
          split <;> split <;> omega
        · obtain rfl : sent = c' := by simpa [Event.isClock, Event.sent] using hc
          refine ⟨min (r - 32000 * sent) lo, ?_, ?_⟩
          · show some (min (r - 32000 * (sent : Int)) lo, max (r - 32000 * (sent : Int)) (lo + t.jitter)) =
              some (min (r - 32000 * (sent : Int)) lo, min (r - 32000 * (sent : Int)) lo + Follower.jitterAfter t.jitter (r - (32000 * sent + lo)))
            have : max (r - 32000 * (sent : Int)) (lo + t.jitter) =
                min (r - 32000 * (sent : Int)) lo + Follower.jitterAfter t.jitter (r - (32000 * sent + lo)) := by
              unfold Follower.jitterAfter
              split <;> omega
            rw [this]
          · show min r (32000 * (sent : Int) + lo) = _
            omega

/-- C49, exactly: the messages of an ideal sender are scheduled as planned, for any times the messages take. -/
theorem C49_exactly (zero : Int) (h : List Event) (s : Follower) (outs : List Int) (hi : Ideal zero h)
    (hr : (Follower.init zero).run (h.map Event.call) = .ok (s, outs)) : outs = (Plan.run ⟨none, zero⟩ h).2 :=
  (plan_state zero h s outs hi hr).1.symm

/-- The difference between the longest and the shortest time clock messages took. -/
def spread (p : Plan) : Int := match p.took with | none => 0 | some (lo, hi) => hi - lo

theorem plan_order (zero : Int) (h : List Event) (hi : Ideal zero h) :
    let p := (Plan.run ⟨none, zero⟩ h).1
    let outs := (Plan.run ⟨none, zero⟩ h).2
    0 ≤ spread p ∧ outs.Pairwise (fun x y => x ≤ y + spread p) ∧
    (∀ (r : Int) (t : Nat), zero < r → (∀ e ∈ h, e.sent ≤ t ∧ e.received ≤ r) →
      match p.took with
      | none => p.floor ≤ r
      | some (_, hi) => p.floor ≤ max r (32000 * t + hi)) ∧
    (∀ t : Nat, (∀ e ∈ h, e.sent ≤ t) → ∀ x ∈ outs,
      match p.took with
      | none => x ≤ p.floor + p.offset
      | some (_, hi) => x ≤ max p.floor (32000 * t + hi) + p.offset) := by
  induction h using List.reverseRecOn with
  | nil => exact ⟨Int.le_refl 0, List.Pairwise.nil, fun r t hr _ => Int.le_of_lt hr, fun t _ x hx => by cases hx⟩
  | append_singleton a e ih =>
    obtain ⟨hia, hord, hpos, -⟩ := Ideal.snoc hi
    obtain ⟨s0, j1, j2, j3⟩ := ih hia
    rw [plan_append]
    generalize Plan.run ⟨none, zero⟩ a = pl at *
    obtain ⟨⟨took, floor⟩, outs⟩ := pl
    have k2 := j2 e.received e.sent hpos hord
    have k3 := j3 e.sent fun x hx => (hord x hx).1
    clear j2 j3
    dsimp only at j1 k2 k3 s0 ⊢
    cases e with
    | message sent r =>
      simp only [Event.sent, Event.received] at k2 k3
      cases took with
      | none =>
        simp only [Plan.step, spread, Plan.offset] at *
        refine ⟨s0, ?_, fun r' t hr' hb => ?_, fun t hb x hx => ?_⟩
        · rw [List.pairwise_append]
          refine ⟨j1, by simp, fun x hx y hy => ?_⟩
          have := k3 x hx
          rw [List.mem_singleton] at hy
          omega
        · exact (hb (.message sent r) (by simp)).2
        · rcases List.mem_append.1 hx with hx | hx
          · have := k3 x hx; omega
          · rw [List.mem_singleton] at hx; omega
      | some q =>
        obtain ⟨lo, hi'⟩ := q
        simp only [Plan.step, spread, Plan.offset] at *
        refine ⟨s0, ?_, fun r' t hr' hb => ?_, fun t hb x hx => ?_⟩
        · rw [List.pairwise_append]
          refine ⟨j1, by simp, fun x hx y hy => ?_⟩
          have := k3 x hx
          rw [List.mem_singleton] at hy
          omega
        · have h1 : r ≤ r' := (hb (.message sent r) (by simp)).2
          have h2 : sent ≤ t := (hb (.message sent r) (by simp)).1
          omega
        · have h2 : sent ≤ t := hb (.message sent r) (by simp)
          rcases List.mem_append.1 hx with hx | hx
          · have := k3 x hx; omega
          · rw [List.mem_singleton] at hx; omega
    | clock sent r =>
      simp only [Event.sent, Event.received] at k2 k3
      cases took with
      | none =>
        simp only [Plan.step, spread, Plan.offset, List.append_nil] at *
        refine ⟨by omega, j1.imp fun h => by omega, fun r' t hr' hb => ?_, fun t hb x hx => ?_⟩
        · have h1 : r ≤ r' := (hb (.clock sent r) (by simp)).2
          omega
        · have := k3 x hx
          omega
      | some q =>
        obtain ⟨lo, hi'⟩ := q
        simp only [Plan.step, spread, Plan.offset, List.append_nil] at *
        refine ⟨by omega, j1.imp fun h => by omega, fun r' t hr' hb => ?_, fun t hb x hx => ?_⟩
        · have h1 : r ≤ r' := (hb (.clock sent r) (by simp)).2
          have h2 : sent ≤ t := (hb (.clock sent r) (by simp)).1
          split <;> omega
        · have h2 : sent ≤ t := hb (.clock sent r) (by simp)
          have := k3 x hx
          split <;> omega

/-- C49: the order of messages is kept up to the jitter: in the history of an ideal sender no message is scheduled earlier than one that
was sent before it by more than the jitter estimate, that is the difference between the longest and the shortest time a clock message
took so far (see `C48_ideal_jitter`). -/
theorem C49_disorder_bounded (zero : Int) (h : List Event) (s : Follower) (outs : List Int) (hi : Ideal zero h)
    (hr : (Follower.init zero).run (h.map Event.call) = .ok (s, outs)) : outs.Pairwise fun x y => x ≤ y + s.jitter := by
  obtain ⟨h1, -, h3, h4⟩ := plan_state zero h s outs hi hr
  obtain ⟨-, h5, -⟩ := plan_order zero h hi
  rw [h1] at h5
  have : spread (Plan.run ⟨none, zero⟩ h).1 = s.jitter := by
    unfold spread
    cases hl : lastClock none h with
    | none => obtain ⟨e, hj⟩ := h3 hl; rw [e, hj]
    | some c => obtain ⟨lo, e, -⟩ := h4 c hl; rw [e]; dsimp only; omega
  rw [this] at h5
  exact h5

/-- C49: in the history for which the order is violated it is by 0.68 ms, with a jitter of 1 ms. -/
example : Ideal 0 faster ∧ Plan.run ⟨none, 0⟩ faster = (⟨some (99000000, 100000000), 1099320000⟩, [1102000000, 1101320000]) ∧
    ∃ s, (Follower.init 0).run (faster.map Event.call) = .ok (s, [1102000000, 1101320000]) ∧ s.jitter = 1000000 :=
  ⟨by decide +kernel, by decide +kernel, _, rfl, by decide +kernel⟩

example : Ideal 0 steady ∧ (Plan.run ⟨none, 0⟩ steady).2 = [105200000, 206600000, 304600000, 305200000] := by decide +kernel

end Midi.Jr
