import Verif.Props.JitterSchedule

/-!
# Property C48: the clock follower and an ideal sender

For the history of an ideal sender the jitter estimate does not accumulate errors: it is exactly the difference between the
longest and the shortest time a clock message took.
-/

namespace Midi.Jr
open Spec.Jr

theorem isMin_unique {a b : Int} {l : List Int} (h : IsMin a l) (h' : IsMin b l) : a = b :=
  Int.le_antisymm (h.2 b h'.1) (h'.2 a h.1)

/-- C48: the jitter estimate after the history of an ideal sender is the difference between the longest and the shortest
time a clock message took, for any number of clock messages. -/
theorem C48_ideal_jitter (zero : Int) (h : List Event) (s : Follower) (outs : List Int) (hi : Ideal zero h)
    (hr : (Follower.init zero).run (h.map Event.call) = .ok (s, outs)) :
    (latencies h = [] → s.jitter = 0) ∧
    (∀ lo hi, IsMin lo (latencies h) → IsMax hi (latencies h) → s.jitter = hi - lo) := by
  have key : (latencies h = [] → s.jitter = 0) ∧
      (∀ lo, IsMin lo (latencies h) → IsMax (s.jitter + lo) (latencies h)) := by
    induction h using List.reverseRecOn generalizing s outs with
    | nil =>
      injection hr with hr
      injection hr with h1 h2
      subst h1
      exact ⟨fun _ => rfl, fun lo hl => absurd hl.1 (by simp [latencies])⟩
    | append_singleton a e ih =>
      obtain ⟨hia, hord, hpos, hclose⟩ := Ideal.snoc hi
      obtain ⟨t, o, os, h1, h2, -⟩ := run_snoc hr
      obtain ⟨iz, ij, i1, i2⟩ := ideal_state zero a t o hia h1
      obtain ⟨k1, k2⟩ := ih t o hia h1
      rw [latencies_append]
      cases e with
      | message sent r =>
        obtain ⟨x, h3, -⟩ := call_schedule h2
        rw [(Follower.scheduleMessage_ok h3).1]
        simp only [List.append_nil]
        exact ⟨k1, k2⟩
      | clock sent r =>
        obtain ⟨h3, -⟩ := call_clock h2
        refine ⟨fun h => by simp at h, ?_⟩
        cases hl : lastClock none a with
        | none =>
          have hz : t.clockTime = t.zero := by rw [i1 hl, iz]
          rw [Follower.processClock_first hz] at h3
          injection h3 with h3
          subst h3
          have hn := (latencies_nil_iff a).2 hl
          intro lo hlo
          rw [hn] at hlo ⊢
          have hj : t.jitter = 0 := k1 hn
          obtain ⟨g1, -⟩ := hlo
          simp only [List.nil_append, List.mem_singleton] at g1
          subst g1
          show IsMax (t.jitter + _) _
          rw [hj]
          exact ⟨by simp, by simp⟩
        | some c =>
          obtain ⟨hts, hpos', m, hm, hct⟩ := i2 c hl
          obtain ⟨r', hmem⟩ := lastClock_mem hl
          have hcs : c ≤ sent := (hord _ hmem).1
          have hex : t.expected (BitVec.ofNat 16 sent) = 32000 * sent + m := by
            rw [expected_of hts hcs (hclose c hl), hct]; omega
          have := Follower.processClock_ok ij (by omega) h3
          rw [hex] at this
          subst this
          obtain ⟨n1, n2⟩ := k2 m hm
          intro lo hlo
          have hlo' : lo = min (r - 32000 * sent) m := by
            refine isMin_unique hlo ⟨?_, ?_⟩
            · rw [List.mem_append]
              by_cases hlt : r - 32000 * (sent : Int) ≤ m
              · right; rw [Int.min_eq_left hlt]; simp
              · left; rw [Int.min_eq_right (by omega)]; exact hm.1
            · intro x hx
              rw [List.mem_append] at hx
              rcases hx with hx | hx
              · have := hm.2 x hx; omega
              · simp only [List.mem_singleton] at hx; omega
          show IsMax (Follower.jitterAfter t.jitter (r - (32000 * sent + m)) + lo) _
          have hsum : Follower.jitterAfter t.jitter (r - (32000 * sent + m)) + lo = max (t.jitter + m) (r - 32000 * sent) := by
            unfold Follower.jitterAfter
            rw [hlo']
            split <;> omega
          rw [hsum]
          constructor
          · rw [List.mem_append]
            by_cases hlt : r - 32000 * (sent : Int) ≤ t.jitter + m
            · left; rw [Int.max_eq_left hlt]; exact n1
            · right; rw [Int.max_eq_right (by omega)]; simp
          · intro x hx
            rw [List.mem_append] at hx
            rcases hx with hx | hx
            · have := n2 x hx; omega
            · simp only [List.mem_singleton] at hx; omega
  refine ⟨key.1, fun lo hi hlo hhi => ?_⟩
  have h1 := key.2 lo hlo
  have h2 := hhi.2 _ h1.1
  have h3 := h1.2 _ hhi.1
  omega

/-- C48: an ideal sender never makes the follower invoke undefined behaviour within four years, for any number of clock
messages, and whatever the system clock showed at the beginning (up to 146 years from its epoch). -/
theorem C48_ideal_no_fault (zero : Int) (h : List Event) (hz1 : -2 ^ 62 ≤ zero) (hz2 : zero ≤ 2 ^ 62) (hi : Ideal zero h)
    (hspan : ∀ e ∈ h, e.received ≤ zero + 2 ^ 57 ∧ 32000 * (e.sent : Int) < 2 ^ 57) :
    ∃ s outs, (Follower.init zero).run (h.map Event.call) = .ok (s, outs) := by
  have hlat : ∀ h : List Event, (∀ e ∈ h, zero < e.received ∧ e.received ≤ zero + 2 ^ 57 ∧ 32000 * (e.sent : Int) < 2 ^ 57) →
      ∀ l ∈ latencies h, zero - 2 ^ 57 < l ∧ l ≤ zero + 2 ^ 57 := by
    intro h hs l hl
    unfold latencies at hl
    rw [List.mem_filterMap] at hl
    obtain ⟨e, he, h⟩ := hl
    obtain ⟨h1, h2, h3⟩ := hs e he
    cases e with
    | message => cases h
    | clock t r =>
      injection h with h
      simp only [Event.received, Event.sent] at h1 h2 h3
      omega
  have key : ∃ s outs, (Follower.init zero).run (h.map Event.call) = .ok (s, outs) ∧ zero ≤ s.messageTime ∧
      s.messageTime ≤ zero + 2 ^ 58 := by
    induction h using List.reverseRecOn with
    | nil => exact ⟨Follower.init zero, [], rfl, Int.le_refl _, by show zero ≤ _; omega⟩
    | append_singleton a e ih =>
      obtain ⟨hia, hord, hpos, hclose⟩ := Ideal.snoc hi
      obtain ⟨hs1, hs2⟩ := hspan e (by simp)
      obtain ⟨t, o, h1, hm1, hm2⟩ := ih hia fun x hx => hspan x (by simp [hx])
      obtain ⟨iz, ij, i1, i2⟩ := ideal_state zero a t o hia h1
      have hj := C48_ideal_jitter zero a t o hia h1
      have hofs := C48_offset_derived zero _ t o (by
        intro c hc x
        rw [List.mem_map] at hc
        obtain ⟨e, -, rfl⟩ := hc
        cases e <;> simp [Event.call]) h1
      have hla := hlat a fun x hx => ⟨hia.2.2 x hx, hspan x (by simp [hx])⟩
      have hjb : t.jitter < 2 ^ 58 := by
        cases hl : lastClock none a with
        | none => rw [hj.1 ((latencies_nil_iff a).2 hl)]; decide
        | some c =>
          obtain ⟨-, -, m, hm, -⟩ := i2 c hl
          have hmax : ∃ M, IsMax M (latencies a) := by
            have : ∀ l : List Int, l ≠ [] → ∃ M, IsMax M l := by
              intro l
              induction l with
              | nil => intro h; exact absurd rfl h
              | cons x l ih =>
                intro _
                by_cases hn : l = []
                · subst hn; exact ⟨x, by simp, by simp⟩
                · obtain ⟨M, g1, g2⟩ := ih hn
                  by_cases hx : x ≤ M
                  · exact ⟨M, by simp [g1], fun y hy => by
                      rcases List.mem_cons.1 hy with rfl | hy
                      · exact hx
                      · exact g2 y hy⟩
                  · exact ⟨x, by simp, fun y hy => by
                      rcases List.mem_cons.1 hy with rfl | hy
                      · exact Int.le_refl _
                      · have := g2 y hy; omega⟩
            exact this _ (by intro h; rw [h] at hm; exact absurd hm.1 (by simp))
          obtain ⟨M, hM⟩ := hmax
          have := hj.2 m M hm hM
          have b1 := hla m hm.1
          have b2 := hla M hM.1
          omega
      have step : ∀ u os, t.call e.call = .ok (u, os) → zero ≤ u.messageTime → u.messageTime ≤ zero + 2 ^ 58 →
          ∃ s outs, (Follower.init zero).run ((a ++ [e]).map Event.call) = .ok (s, outs) ∧ zero ≤ s.messageTime ∧
            s.messageTime ≤ zero + 2 ^ 58 := by
        intro u os h g1 g2
        refine ⟨u, o ++ os, ?_, g1, g2⟩
        rw [List.map_append, run_append, h1, ok_bind]
        simp only [List.map_cons, List.map_nil, Follower.run, h, ok_bind, pure_eq_ok, List.append_nil]
      cases e with
      | clock sent r =>
        simp only [Event.received, Event.sent] at hpos hs1 hs2
        by_cases hcz : t.clockTime = t.zero
        · exact step _ [] (clock_eq (Follower.processClock_first hcz)) (by show zero ≤ r; omega) (by show r ≤ _; omega)
        · cases hl : lastClock none a with
          | none => exact absurd (by rw [i1 hl, iz]) hcz
          | some c =>
            obtain ⟨hts, hpos', m, hm, hct⟩ := i2 c hl
            obtain ⟨r', hmem⟩ := lastClock_mem hl
            have hcs : c ≤ sent := (hord _ hmem).1
            have hex : t.expected (BitVec.ofNat 16 sent) = 32000 * sent + m := by
              rw [expected_of hts hcs (hclose c hl), hct]; omega
            have b1 := hla m hm.1
            obtain ⟨u, hu⟩ : ∃ u, t.processClock r (BitVec.ofNat 16 sent) = .ok u := by
              unfold Follower.processClock
              rw [if_neg hcz]
              have hex' : t.clockTime + ticksToNs (ticksBetween (BitVec.ofNat 16 sent) t.clockTs) = 32000 * sent + m := by
                rw [← hex]; unfold Follower.expected ticksToNs; omega
              simp only
              rw [hex', chk64_pos (by omega) (by omega), ok_bind, chk64_pos (by omega) (by omega), ok_bind]
              split
              · split
                all_goals exact updateStats_noFault ij hjb (by omega) (by omega)
              · exact updateStats_noFault ij hjb (by omega) (by omega)
            have := Follower.processClock_ok ij hcz hu
            refine step u [] (clock_eq hu) ?_ ?_
            · rw [this]
              show zero ≤ if r < t.expected _ then max t.messageTime r else r
              split <;> omega
            · rw [this]
              show (if r < t.expected _ then max t.messageTime r else r) ≤ _
              split <;> omega
      | message sent r =>
        simp only [Event.received, Event.sent] at hpos hs1 hs2
        have hofs' : 0 ≤ t.securityOffset ∧ t.securityOffset < 2 ^ 59 := by rw [hofs]; omega
        have hexb : t.clockTime ≠ t.zero → zero - 2 ^ 57 < t.expected (BitVec.ofNat 16 sent) ∧
            t.expected (BitVec.ofNat 16 sent) ≤ zero + 2 ^ 58 := by
          intro hcz
          cases hl : lastClock none a with
          | none => exact absurd (by rw [i1 hl, iz]) hcz
          | some c =>
            obtain ⟨hts, hpos', m, hm, hct⟩ := i2 c hl
            obtain ⟨r', hmem⟩ := lastClock_mem hl
            have hcs : c ≤ sent := (hord _ hmem).1
            have hex : t.expected (BitVec.ofNat 16 sent) = 32000 * sent + m := by
              rw [expected_of hts hcs (hclose c hl), hct]; omega
            have b1 := hla m hm.1
            omega
        obtain ⟨u, x, hu⟩ : ∃ u x, t.scheduleMessage r (BitVec.ofNat 16 sent) = .ok (u, x) := by
          unfold Follower.scheduleMessage
          have hex : t.clockTime + ticksToNs (ticksBetween (BitVec.ofNat 16 sent) t.clockTs) =
              t.expected (BitVec.ofNat 16 sent) := by
            unfold Follower.expected ticksToNs; omega
          simp only
          split
          · rename_i hcz
            have := hexb hcz
            rw [hex, chk64_pos (x := t.expected _) (by omega) (by omega), ok_bind]
            split
            · rw [chk64_pos (by show _ ≤ t.expected _ + t.securityOffset; omega)
                (by show t.expected _ + t.securityOffset < _; omega)]
              exact ⟨_, _, rfl⟩
            · rw [chk64_pos (by omega) (by omega)]
              exact ⟨_, _, rfl⟩
          · rw [chk64_pos (by omega) (by omega)]
            exact ⟨_, _, rfl⟩
        have := (Follower.scheduleMessage_ok hu).1
        refine step u [x] (schedule_eq hu) ?_ ?_
        · rw [this]
          show zero ≤ if t.clockTime ≠ t.zero then max t.messageTime (t.expected _) else r
          split <;> omega
        · rw [this]
          show (if t.clockTime ≠ t.zero then max t.messageTime (t.expected _) else r) ≤ _
          split
          · rename_i hcz; have := hexb hcz; omega
          · omega
  obtain ⟨s, outs, h1, -⟩ := key
  exact ⟨s, outs, h1⟩

/-- C48: the clock messages of `steady` take between 100 ms and 103 ms, so the jitter is 3 ms. -/
example : Ideal 0 steady ∧ (∀ e ∈ steady, e.received ≤ 0 + 2 ^ 57 ∧ 32000 * (e.sent : Int) < 2 ^ 57) ∧
    IsMin 100000000 (latencies steady) ∧ IsMax 103000000 (latencies steady) ∧
    ((Follower.init 0).run (steady.map Event.call)).map (fun r => r.1.jitter) = .ok 3000000 := by
  refine ⟨by decide +kernel, by decide +kernel, ⟨by decide +kernel, by decide +kernel⟩, ⟨by decide +kernel, by decide +kernel⟩,
    by decide +kernel⟩

end Midi.Jr
