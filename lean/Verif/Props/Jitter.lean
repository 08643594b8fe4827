import Verif.Model.Jitter
import Verif.Props.Packet
import Verif.Props.Messages
import Verif.Lemmas.Jitter
import Verif.Spec.Jitter

/-!
# Properties C47 and C48, and C14 for jitter reduction messages
-/

namespace Midi.Jr
open Spec Spec.Jr

/-! ## C47 -/

/-- C47: the difference of timestamps is the number of ticks from the second to the first one modulo 2^16. -/
theorem C47_difference (a b : U16) :
    ticksBetween a b = ((a.toNat : Int) - (b.toNat : Int)) % 65536 ∧ 0 ≤ ticksBetween a b ∧ ticksBetween a b < 65536 := by
  have ha := a.isLt
  have hb := b.isLt
  have h : ticksBetween a b = ((a.toNat : Int) - (b.toNat : Int)) % 65536 := by
    unfold ticksBetween
    simp only [BitVec.toNat_ofInt]
    split <;> omega
  omega

/-- C47: for a clock that counts ticks without wrapping around, the difference of the timestamps of two times less than 2^16
ticks apart is their distance. -/
theorem C47_elapsed (earlier later : Nat) (h : earlier ≤ later) (hd : later < earlier + 65536) :
    ticksBetween (BitVec.ofNat 16 later) (BitVec.ofNat 16 earlier) = (later : Int) - earlier := by
  rw [(C47_difference _ _).1, BitVec.toNat_ofNat, BitVec.toNat_ofNat]
  omega

example := C47_elapsed 1000000 1065535 (by decide) (by decide)

/-- C47: going forth and back between different timestamps takes 2^16 ticks. -/
theorem C47_round (a b : U16) (h : a ≠ b) : ticksBetween a b + ticksBetween b a = 65536 := by
  have ha := a.isLt
  have hb := b.isLt
  have : a.toNat ≠ b.toNat := fun e => h (BitVec.eq_of_toNat_eq e)
  rw [(C47_difference _ _).1, (C47_difference _ _).1]
  omega

/-- C47: two readings of the jitter reduction clock differ by the number of ticks of 32 us that begin between them, modulo
2^16. -/
theorem C47_clock_now (zero t1 t2 : Int) (h1 : zero ≤ t1) (h2 : t1 ≤ t2) (hr : t2 - zero < 2 ^ 63) :
    ∃ a b, clockNow zero t1 = .ok a ∧ clockNow zero t2 = .ok b ∧
      ticksBetween b a = ((t2 - zero) / 32000 - (t1 - zero) / 32000) % 65536 := by
  have key : ∀ t, zero ≤ t → t - zero < 2 ^ 63 → clockNow zero t = .ok (BitVec.ofInt 16 ((t - zero) / 32000)) := by
    intro t h1 h2
    unfold clockNow chk64
    rw [if_pos (by omega), ok_bind, Int.tdiv_eq_ediv_of_nonneg (by omega)]
    rfl
  refine ⟨_, _, key t1 h1 (by omega), key t2 (by omega) hr, ?_⟩
  rw [(C47_difference _ _).1, BitVec.toNat_ofInt, BitVec.toNat_ofInt]
  omega

example : ticksBetween 0x0010 0xFFF0 = 0x20 ∧ ticksBetween 0xFFF0 0x0010 = 0xFFE0 := by decide
example : clockNow 1000 1000 = .ok 0 ∧ clockNow 1000 (1000 + 32000 * 65537) = .ok 1 := by decide

/-! ## C14 -/

/-- C14: setting the timestamp of a jitter reduction message replaces its third and fourth byte, and it reads back. -/
theorem C14_jr_set_timestamp (p : Packet) (ts : U16) :
    ∃ q, setTimestamp p ts = .ok q ∧ timestamp q = .ok ts ∧
      (∃ a b : Byte, q.getByte 2 = .ok a ∧ q.getByte 3 = .ok b ∧ a.toNat * 256 + b.toNat = ts.toNat) ∧
      ∀ k, k ≠ 2 → k ≠ 3 → q.getByte k = p.getByte k := by
  obtain ⟨q1, h1, h2, h3⟩ := Midi.C01_set_byte p 2 (by decide) ((ts >>> 8).setWidth 8)
  obtain ⟨q2, h4, h5, h6⟩ := Midi.C01_set_byte q1 3 (by decide) ((ts &&& 0xFF).setWidth 8)
  refine ⟨q2, ?_, ?_, ?_, ?_⟩
  · unfold setTimestamp
    rw [h1, ok_bind, h4]
  · unfold timestamp
    rw [h6 2 (by decide), h2, ok_bind, h5, ok_bind, pure_eq_ok]
    refine congrArg Except.ok ?_
    bits
  · refine ⟨_, _, by rw [h6 2 (by decide), h2], h5, ?_⟩
    have := ts.isLt
    rw [BitVec.toNat_setWidth, BitVec.toNat_setWidth, BitVec.toNat_ushiftRight, BitVec.toNat_and,
      show (0xFF : U16).toNat = 2 ^ 8 - 1 from rfl, Nat.and_two_pow_sub_one_eq_mod, Nat.shiftRight_eq_div_pow]
    omega
  · intro k k2 k3
    rw [h6 k k3, h3 k k2]

theorem makeMessage_eq (status : Byte) (ts : U16) : makeMessage status ts = .ok (makeUtility status ts) := by
  rw [makeUtility_eq]
  unfold makeMessage setTimestamp Packet.setType
  rw [assert_ok (by decide)]
  simp only [ok_bind, pure_eq_ok, Packet.setByte, show (1 : Nat) < 16 by decide, show (2 : Nat) < 16 by decide,
    show (3 : Nat) < 16 by decide, if_true]
  refine congrArg Except.ok ?_
  simp only [Packet.putByte, Packet.word, Packet.setWord, Packet.mk.injEq, and_true, wordOf, PacketType.utility]
  bits

/-- C14: jitter reduction clock and timestamp messages are utility messages with the right status that carry the
timestamp. -/
theorem C14_jr_messages (ts : U16) :
    (∃ p, makeClock ts = .ok p ∧ UtilityLayout p 0x10 ts.toNat ∧ timestamp p = .ok ts ∧ utilityView p = .ok p ∧
      utilityStatus p = 0x10 ∧ utilityPayload p = ts) ∧
    (∃ p, makeTimestamp ts = .ok p ∧ UtilityLayout p 0x20 ts.toNat ∧ timestamp p = .ok ts ∧ utilityView p = .ok p ∧
      utilityStatus p = 0x20 ∧ utilityPayload p = ts) := by
  have key : ∀ status : Byte, timestamp (makeUtility status ts) = .ok ts := by
    intro status
    obtain ⟨-, -, -, h⟩ := C14_utility status ts
    unfold timestamp
    rw [(C02_header_fields _).2.2.2.1, (C02_header_fields _).2.2.2.2, ok_bind, ok_bind, pure_eq_ok]
    exact congrArg Except.ok h
  constructor
  · obtain ⟨h1, h2, h3, h4⟩ := C14_utility 0x10 ts
    exact ⟨_, makeMessage_eq _ _, h1, key _, h2, h3, h4⟩
  · obtain ⟨h1, h2, h3, h4⟩ := C14_utility 0x20 ts
    exact ⟨_, makeMessage_eq _ _, h1, key _, h2, h3, h4⟩

example : makeTimestamp 0xABCD = .ok ⟨0x0020ABCD, 0, 0, 0⟩ := by decide

/-! ## C48 -/

theorem run_cons {s s' : Follower} {c : Call} {cs : List Call} {outs : List Int} (h : s.run (c :: cs) = .ok (s', outs)) :
    ∃ t o os, s.call c = .ok (t, o) ∧ t.run cs = .ok (s', os) ∧ outs = o ++ os := by
  unfold Follower.run at h
  rw [bind_ok] at h
  obtain ⟨⟨t, o⟩, h1, h⟩ := h
  rw [bind_ok] at h
  obtain ⟨⟨u, os⟩, h2, h⟩ := h
  injection h with h
  injection h with h3 h4
  exact ⟨t, o, os, h1, by rw [h2, h3], h4.symm⟩

theorem run_append (s : Follower) (a b : List Call) :
    s.run (a ++ b) = (do let (t, o) ← s.run a; let (u, os) ← t.run b; return (u, o ++ os)) := by
  induction a generalizing s with
  | nil =>
    show s.run b = (do let (u, os) ← s.run b; return (u, [] ++ os))
    cases s.run b with
    | error e => rfl
    | ok p => rfl
  | cons c a ih =>
    rw [List.cons_append, Follower.run, Follower.run]
    cases s.call c with
    | error e => rfl
    | ok p =>
      simp only [ok_bind]
      rw [ih]
      cases p.1.run a with
      | error e => rfl
      | ok q =>
        simp only [ok_bind, pure_eq_ok]
        cases q.1.run b with
        | error e => rfl
        | ok r => simp only [ok_bind, List.append_assoc]

theorem init_nonneg (zero : Int) : 0 ≤ (Follower.init zero).jitter ∧ 0 ≤ (Follower.init zero).securityOffset :=
  ⟨Int.le_refl 0, show (0 : Int) ≤ 2000000 by decide⟩

theorem clock_eq {s t : Follower} {r : Int} {ts : U16} (h : s.processClock r ts = .ok t) :
    s.call (.clock r ts) = .ok (t, []) := by
  show (do return (← s.processClock r ts, [])) = _
  rw [h]; rfl

theorem schedule_eq {s t : Follower} {r x : Int} {ts : U16} (h : s.scheduleMessage r ts = .ok (t, x)) :
    s.call (.schedule r ts) = .ok (t, [x]) := by
  show (do let (s, t) ← s.scheduleMessage r ts; return (s, [t])) = _
  rw [h]; rfl

theorem setOffset_eq (s : Follower) (x : Int) (hx : 0 ≤ x) :
    s.call (.setOffset x) = .ok ({ s with securityOffset := x }, []) := by
  show (do return (← s.setSecurityOffset x, [])) = _
  unfold Follower.setSecurityOffset
  rw [assert_ok (by simpa using hx)]
  rfl

theorem call_setOffset {s t : Follower} {x : Int} {o : List Int} (h : s.call (.setOffset x) = .ok (t, o)) :
    0 ≤ x ∧ t = { s with securityOffset := x } ∧ o = [] := by
  by_cases hx : 0 ≤ x
  · rw [setOffset_eq s x hx] at h
    injection h with h
    injection h with h1 h2
    exact ⟨hx, h1.symm, h2.symm⟩
  · have : s.call (.setOffset x) = .error .assertFailed := by
      show (do return (← s.setSecurityOffset x, [])) = _
      unfold Follower.setSecurityOffset
      rw [assert_fail (by simpa using hx)]
      rfl
    rw [this] at h
    cases h

theorem call_reset {s t : Follower} {o : List Int} (h : s.call .reset = .ok (t, o)) : t = Follower.init s.zero ∧ o = [] := by
  injection h with h
  injection h with h1 h2
  exact ⟨h1.symm, h2.symm⟩

theorem call_clock {s t : Follower} {r : Int} {ts : U16} {o : List Int} (h : s.call (.clock r ts) = .ok (t, o)) :
    s.processClock r ts = .ok t ∧ o = [] := by
  unfold Follower.call at h
  rw [bind_ok] at h
  obtain ⟨u, h1, h⟩ := h
  injection h with h
  injection h with h2 h3
  exact ⟨by rw [h1, h2], h3.symm⟩

theorem call_schedule {s t : Follower} {r : Int} {ts : U16} {o : List Int} (h : s.call (.schedule r ts) = .ok (t, o)) :
    ∃ x, s.scheduleMessage r ts = .ok (t, x) ∧ o = [x] := by
  unfold Follower.call at h
  rw [bind_ok] at h
  obtain ⟨⟨u, x⟩, h1, h⟩ := h
  injection h with h
  injection h with h2 h3
  exact ⟨x, by rw [h1, h2], h3.symm⟩

/-- Every call keeps the construction time, the jitter estimate and the security offset non negative. -/
theorem call_nonneg {s t : Follower} {c : Call} {o : List Int} (h : s.call c = .ok (t, o)) (hj : 0 ≤ s.jitter)
    (hs : 0 ≤ s.securityOffset) : 0 ≤ t.jitter ∧ 0 ≤ t.securityOffset ∧ t.zero = s.zero := by
  cases c with
  | clock r ts =>
    obtain ⟨h, -⟩ := call_clock h
    by_cases hz : s.clockTime = s.zero
    · rw [Follower.processClock_first hz] at h
      injection h with h
      subst h
      exact ⟨hj, hs, rfl⟩
    · rw [Follower.processClock_ok hj hz h]
      exact ⟨Int.le_trans hj (Follower.jitterAfter_ge hj), Int.le_trans hs (Follower.offsetAfter_ge _ _ _), rfl⟩
  | schedule r ts =>
    obtain ⟨x, h, -⟩ := call_schedule h
    rw [(Follower.scheduleMessage_ok h).1]
    exact ⟨hj, hs, rfl⟩
  | setOffset x =>
    obtain ⟨h1, h2, -⟩ := call_setOffset h
    subst h2
    exact ⟨hj, h1, rfl⟩
  | reset =>
    obtain ⟨rfl, -⟩ := call_reset h
    exact ⟨(init_nonneg _).1, (init_nonneg _).2, rfl⟩

/-- C48: after every sequence of calls, the jitter estimate and the security offset are non negative. -/
theorem C48_nonneg (zero : Int) (calls : List Call) (s : Follower) (outs : List Int)
    (h : (Follower.init zero).run calls = .ok (s, outs)) : 0 ≤ s.jitter ∧ 0 ≤ s.securityOffset := by
  have key : ∀ (calls : List Call) (s s' : Follower) (outs : List Int), 0 ≤ s.jitter → 0 ≤ s.securityOffset →
      s.run calls = .ok (s', outs) → 0 ≤ s'.jitter ∧ 0 ≤ s'.securityOffset := by
    intro calls
    induction calls with
    | nil =>
      intro s s' outs hj hs h
      injection h with h
      injection h with h1 h2
      subst h1
      exact ⟨hj, hs⟩
    | cons c cs ih =>
      intro s s' outs hj hs h
      obtain ⟨t, o, os, h1, h2, -⟩ := run_cons h
      obtain ⟨a, b, -⟩ := call_nonneg h1 hj hs
      exact ih t s' os a b h2
  exact key calls _ s outs (init_nonneg _).1 (init_nonneg _).2 h

example := C48_nonneg 0 [.clock 100000000 0, .schedule 101000000 31, .clock 205000000 3125, .schedule 205000000 3200] _ _ rfl

/-- C48: the security offset is derived from the jitter estimate: as long as it was not set, it is the larger one of two
milliseconds and 1.2 times the jitter estimate. -/
theorem C48_offset_derived (zero : Int) (calls : List Call) (s : Follower) (outs : List Int) (hn : noOffset calls)
    (h : (Follower.init zero).run calls = .ok (s, outs)) : s.securityOffset = max 2000000 (s.jitter * 12 / 10) := by
  have key : ∀ (calls : List Call) (s s' : Follower) (outs : List Int), noOffset calls → 0 ≤ s.jitter →
      s.securityOffset = max 2000000 (s.jitter * 12 / 10) →
      s.run calls = .ok (s', outs) → s'.securityOffset = max 2000000 (s'.jitter * 12 / 10) := by
    intro calls
    induction calls with
    | nil =>
      intro s s' outs _ _ hs h
      injection h with h
      injection h with h1 h2
      subst h1
      exact hs
    | cons c cs ih =>
      intro s s' outs hn hj hs h
      obtain ⟨t, o, os, h1, h2, -⟩ := run_cons h
      obtain ⟨a, -, -⟩ := call_nonneg h1 hj (by omega)
      refine ih t s' os (fun c hc => hn c (List.mem_cons_of_mem _ hc)) a ?_ h2
      cases c with
      | clock r ts =>
        obtain ⟨h, -⟩ := call_clock h1
        by_cases hz : s.clockTime = s.zero
        · rw [Follower.processClock_first hz] at h
          injection h with h
          subst h
          exact hs
        · rw [Follower.processClock_ok hj hz h]
          have := Follower.jitterAfter_ge (j := r - s.expected ts) hj
          show Follower.offsetAfter s.securityOffset s.jitter (Follower.jitterAfter s.jitter (r - s.expected ts)) =
            max 2000000 (Follower.jitterAfter s.jitter (r - s.expected ts) * 12 / 10)
          generalize Follower.jitterAfter s.jitter (r - s.expected ts) = j at *
          unfold Follower.offsetAfter
          split
          · subst j; exact hs
          · omega
      | schedule r ts =>
        obtain ⟨x, h, -⟩ := call_schedule h1
        rw [(Follower.scheduleMessage_ok h).1]
        exact hs
      | setOffset x => exact absurd rfl (hn _ (List.mem_cons_self ..) x)
      | reset =>
        obtain ⟨rfl, -⟩ := call_reset h1
        rfl
  exact key calls _ s outs hn (init_nonneg _).1 rfl h

example := C48_offset_derived 0 [.clock 100000000 0, .schedule 101000000 31, .clock 205000000 3125, .schedule 205000000 3200] _ _
  (by intro c hc o h; subst h; simp at hc) rfl

/-- C48: processing a clock message never lowers the jitter estimate or the security offset. If the estimate changes, the
offset is at least 1.2 times the estimate afterwards, also if it was set to another value before. -/
theorem C48_clock_monotone (s s' : Follower) (r : Int) (ts : U16) (hj : 0 ≤ s.jitter)
    (h : s.processClock r ts = .ok s') :
    s.jitter ≤ s'.jitter ∧ s.securityOffset ≤ s'.securityOffset ∧
      (s'.jitter ≠ s.jitter → s'.jitter * 12 / 10 ≤ s'.securityOffset) := by
  by_cases hz : s.clockTime = s.zero
  · rw [Follower.processClock_first hz] at h
    injection h with h
    subst h
    exact ⟨Int.le_refl _, Int.le_refl _, fun h => absurd rfl h⟩
  · rw [Follower.processClock_ok hj hz h]
    refine ⟨Follower.jitterAfter_ge hj, Follower.offsetAfter_ge _ _ _, ?_⟩
    intro hne
    show _ ≤ Follower.offsetAfter s.securityOffset s.jitter _
    unfold Follower.offsetAfter
    rw [if_neg hne]
    exact Int.le_max_right _ _

example := C48_clock_monotone { Follower.init 0 with jitter := 5 } _ 100000000 7 (by decide) rfl

/-- C48: `reset()` forgets all history: after it, the follower behaves like a new one. -/
theorem C48_reset (zero : Int) (before after : List Call) (s : Follower) (outs : List Int)
    (h : (Follower.init zero).run before = .ok (s, outs)) :
    (Follower.init zero).run (before ++ .reset :: after) =
      ((Follower.init zero).run after).map fun p => (p.1, outs ++ p.2) := by
  have hz : s.zero = zero := by
    have key : ∀ (calls : List Call) (s s' : Follower) (outs : List Int), 0 ≤ s.jitter → 0 ≤ s.securityOffset →
        s.run calls = .ok (s', outs) → s'.zero = s.zero := by
      intro calls
      induction calls with
      | nil =>
        intro s s' outs _ _ h
        injection h with h
        injection h with h1 h2
        rw [h1]
      | cons c cs ih =>
        intro s s' outs hj hs h
        obtain ⟨t, o, os, h1, h2, -⟩ := run_cons h
        obtain ⟨a, b, e⟩ := call_nonneg h1 hj hs
        rw [ih t s' os a b h2, e]
    exact key before _ s outs (init_nonneg _).1 (init_nonneg _).2 h
  rw [run_append, h, ok_bind]
  show (do let (u, os) ← s.run (.reset :: after); return (u, outs ++ os)) = _
  have : s.run (.reset :: after) = (Follower.init zero).run after := by
    show (do let (u, os) ← (Follower.init s.zero).run after; return (u, [] ++ os)) = _
    rw [hz]
    cases (Follower.init zero).run after with
    | error e => rfl
    | ok p => rfl
  rw [this]
  cases (Follower.init zero).run after with
  | error e => rfl
  | ok p => rfl

example := C48_reset 0 [.clock 100000000 0, .schedule 101000000 31, .clock 205000000 3125, .schedule 205000000 3200] [.schedule 300000000 7] _ _ rfl

/-! ### Overflow -/

theorem updateStats_noFault {s : Follower} {j : Int} (h0 : 0 ≤ s.jitter) (h1 : s.jitter < 2 ^ 58)
    (h2 : -2 ^ 58 ≤ j) (h3 : j < 2 ^ 58) : ∃ t, s.updateStats j = .ok t := by
  unfold Follower.updateStats
  split
  · rw [chk64_pos (by omega) (by omega), ok_bind]
    unfold Follower.recalcSecurityOffset
    rw [chk64_pos (by show _ ≤ (s.jitter - j) * 12; omega) (by show (s.jitter - j) * 12 < _; omega)]
    exact ⟨_, rfl⟩
  · split
    · unfold Follower.recalcSecurityOffset
      rw [chk64_pos (by show _ ≤ j * 12; omega) (by show j * 12 < _; omega)]
      exact ⟨_, rfl⟩
    · exact ⟨_, rfl⟩

theorem updateStats_defined {s : Follower} {j : Int} (h0 : 0 ≤ s.jitter) (h1 : (s.jitter - j) * 12 < 2 ^ 63) (h2 : j * 12 < 2 ^ 63) :
    ∃ t, s.updateStats j = .ok t := by
  unfold Follower.updateStats
  split
  · rw [chk64_pos (by omega) (by omega), ok_bind]
    unfold Follower.recalcSecurityOffset
    rw [chk64_pos (by show _ ≤ (s.jitter - j) * 12; omega) (by show (s.jitter - j) * 12 < _; omega)]
    exact ⟨_, rfl⟩
  · split
    · unfold Follower.recalcSecurityOffset
      rw [chk64_pos (by show _ ≤ j * 12; omega) (by show j * 12 < _; omega)]
      exact ⟨_, rfl⟩
    · exact ⟨_, rfl⟩

theorem expected_le (s : Follower) (ts : U16) : s.expected ts ≤ s.clockTime + 2097120000 := by
  have := ticks_range ts s.clockTs; unfold Follower.expected; omega

/-- C48: for monotone receive times nothing undefined happens if the time between the first and the last call, plus 2.09712 s (65535
ticks) for each clock message but the first, is at most 2^63 / 12 ns (24 years), and the security offset is not set to a negative value or
to more than 36 years. Partial: `C48_overflow` shows that it does happen otherwise, and `C48_clock_messages` that for calls at the same
time this is exact. -/
theorem C48_no_fault_partial (zero span : Int) (calls : List Call) (hz1 : -2 ^ 62 ≤ zero) (hz2 : zero ≤ 2 ^ 62) (hspan0 : 0 ≤ span)
    (hmono : (zero :: times calls).Pairwise (· ≤ ·)) (hspan : ∀ t ∈ times calls, t ≤ zero + span)
    (hclocks : span + ((clocks calls : Int) - 1) * 2097120000 ≤ 768614336404564650)
    (hset : ∀ o, Call.setOffset o ∈ calls → 0 ≤ o ∧ o ≤ 2 ^ 60) :
    ∃ s outs, (Follower.init zero).run calls = .ok (s, outs) := by
  have key : ∀ (calls : List Call) (s : Follower) (last : Int) (n : Nat), s.zero = zero → zero ≤ last →
      last ≤ zero + span → (last :: times calls).Pairwise (· ≤ ·) → (∀ t ∈ times calls, t ≤ zero + span) →
      span + ((n : Int) + (clocks calls : Int) - 1) * 2097120000 ≤ 768614336404564650 → (∀ o, Call.setOffset o ∈ calls → 0 ≤ o ∧ o ≤ 2 ^ 60) →
      zero ≤ s.clockTime → s.clockTime ≤ last → zero ≤ s.messageTime → s.messageTime ≤ last + 2 ^ 31 → 0 ≤ s.jitter →
      (s.clockTime = zero → s.jitter = 0) → (s.clockTime ≠ zero → s.jitter ≤ span + ((n : Int) - 1) * 2097120000) → 0 ≤ s.securityOffset → s.securityOffset ≤ 2 ^ 60 →
      ∃ t outs, s.run calls = .ok (t, outs) := by
    intro calls
    induction calls with
    | nil => intro s _ _ _ _ _ _ _ _ _ _ _ _ _ _ _ _ _ _; exact ⟨s, [], rfl⟩
    | cons c cs ih =>
      intro s last n hz hl1 hl2 hp hspan hn hset c1 c2 m1 m2 j1 j2 j3 o1 o2
      have hset' : ∀ o, Call.setOffset o ∈ cs → 0 ≤ o ∧ o ≤ 2 ^ 60 := fun o ho => hset o (List.mem_cons_of_mem _ ho)
      have step : ∀ t o, s.call c = .ok (t, o) → (∃ u outs, t.run cs = .ok (u, outs)) →
          ∃ u outs, s.run (c :: cs) = .ok (u, outs) := by
        intro t o h ⟨u, outs, h2⟩
        unfold Follower.run
        rw [h, ok_bind]
        simp only
        rw [h2]
        exact ⟨_, _, rfl⟩
      cases c with
      | clock r ts =>
        have ht : times (.clock r ts :: cs) = r :: times cs := rfl
        rw [ht] at hp hspan
        have hr := hspan r (List.mem_cons_self ..)
        have hlr : last ≤ r := List.rel_of_pairwise_cons hp (List.mem_cons_self ..)
        have hcl : clocks (.clock r ts :: cs) = clocks cs + 1 := by
          unfold clocks; rw [List.countP_cons_of_pos]; rfl
        rw [hcl] at hn
        push_cast at hn
        have e1 := s.expected_ge ts
        have e2 := expected_le s ts
        have hcast : ((n + 1 : Nat) : Int) = n + 1 := by omega
        have hc0 : (0 : Int) ≤ (clocks cs : Int) := by omega
        by_cases hcz : s.clockTime = s.zero
        · refine step _ [] (clock_eq (Follower.processClock_first hcz)) ?_
          refine ih { s with clockTime := r, clockTs := ts, messageTime := r } r (n + 1) hz (by omega) hr hp.of_cons
            (fun t h => hspan t (List.mem_cons_of_mem _ h)) (by omega) hset' ?_ (Int.le_refl r) ?_ ?_ j1 ?_ ?_ o1 o2
          · show zero ≤ r; omega
          · show zero ≤ r; omega
          · show r ≤ r + 2 ^ 31; omega
          · exact fun _ => j2 (by omega)
          · intro _; show s.jitter ≤ span + (((n + 1 : Nat) : Int) - 1) * 2097120000; rw [j2 (by omega)]; omega
        · have j3 := j3 (by omega)
          obtain ⟨t, ht⟩ : ∃ t, s.processClock r ts = .ok t := by
            unfold Follower.processClock
            rw [if_neg hcz]
            have hex : s.clockTime + ticksToNs (ticksBetween ts s.clockTs) = s.expected ts := by
              unfold Follower.expected ticksToNs; omega
            simp only
            rw [hex, chk64_pos (by omega) (by omega), ok_bind, chk64_pos (by omega) (by omega), ok_bind]
            split
            · split
              all_goals exact updateStats_defined j1 (show (s.jitter - (r - s.expected ts)) * 12 < _ by omega) (by omega)
            · exact updateStats_defined j1 (show (s.jitter - (r - s.expected ts)) * 12 < _ by omega) (by omega)
          refine step t [] (clock_eq ht) ?_
          have hnn := call_nonneg (c := .clock r ts) (o := []) (clock_eq ht) j1 o1
          have := Follower.processClock_ok j1 hcz ht
          have hj : Follower.jitterAfter s.jitter (r - s.expected ts) ≤ span + (((n + 1 : Nat) : Int) - 1) * 2097120000 := by
            unfold Follower.jitterAfter
            split <;> omega
          have hj0 := Follower.jitterAfter_ge (j := r - s.expected ts) j1
          subst this
          refine ih _ r (n + 1) hz (by omega) hr hp.of_cons (fun t h => hspan t (List.mem_cons_of_mem _ h)) (by omega) hset'
            ?_ ?_ ?_ ?_ hnn.1 ?_ (fun _ => hj) hnn.2.1 ?_
          · show zero ≤ min _ _; omega
          · show min _ _ ≤ r; omega
          · show zero ≤ if r < s.expected ts then max s.messageTime r else r
            split <;> omega
          · show (if r < s.expected ts then max s.messageTime r else r) ≤ r + 2 ^ 31
            split <;> omega
          · intro h; have h : min r (s.expected ts) = zero := h; omega
          · show Follower.offsetAfter _ _ _ ≤ 2 ^ 60
            unfold Follower.offsetAfter
            split <;> omega
      | schedule r ts =>
        have ht : times (.schedule r ts :: cs) = r :: times cs := rfl
        rw [ht] at hp hspan
        have hr := hspan r (List.mem_cons_self ..)
        have hlr : last ≤ r := List.rel_of_pairwise_cons hp (List.mem_cons_self ..)
        have hcl : clocks (.schedule r ts :: cs) = clocks cs := by
          simp [clocks]
        rw [hcl] at hn
        have e1 := s.expected_ge ts
        have e2 := s.expected_lt ts
        obtain ⟨t, x, ht⟩ : ∃ t x, s.scheduleMessage r ts = .ok (t, x) := by
          unfold Follower.scheduleMessage
          have hex : s.clockTime + ticksToNs (ticksBetween ts s.clockTs) = s.expected ts := by
            unfold Follower.expected ticksToNs; omega
          simp only
          rw [hex, chk64_pos (x := s.expected ts) (by omega) (by omega)]
          split
          · rw [ok_bind]
            split
            · rw [chk64_pos (by show _ ≤ s.expected ts + s.securityOffset; omega)
                (by show s.expected ts + s.securityOffset < _; omega)]
              exact ⟨_, _, rfl⟩
            · rw [chk64_pos (by omega) (by omega)]
              exact ⟨_, _, rfl⟩
          · rw [chk64_pos (by omega) (by omega)]
            exact ⟨_, _, rfl⟩
        refine step t [x] (schedule_eq ht) ?_
        have := (Follower.scheduleMessage_ok ht).1
        subst this
        refine ih _ r n hz (by omega) hr hp.of_cons (fun t h => hspan t (List.mem_cons_of_mem _ h)) (by omega) hset'
          c1 (show s.clockTime ≤ r by omega) ?_ ?_ j1 j2 j3 o1 o2
        · show zero ≤ if s.clockTime ≠ s.zero then max s.messageTime (s.expected ts) else r
          split <;> omega
        · show (if s.clockTime ≠ s.zero then max s.messageTime (s.expected ts) else r) ≤ r + 2 ^ 31
          split <;> omega
      | setOffset x =>
        obtain ⟨hx1, hx2⟩ := hset x (List.mem_cons_self ..)
        refine step { s with securityOffset := x } [] (setOffset_eq s x hx1) ?_
        · have hcl : clocks (.setOffset x :: cs) = clocks cs := by
            simp [clocks]
          rw [hcl] at hn
          exact ih _ last n hz hl1 hl2 hp hspan hn hset' c1 c2 m1 m2 j1 j2 j3 hx1 (show x ≤ _ by omega)
      | reset =>
        refine step (Follower.init s.zero) [] rfl ?_
        have hcl : clocks (.reset :: cs) = clocks cs := by
          simp [clocks]
        rw [hcl] at hn
        exact ih _ last n hz hl1 hl2 hp hspan hn hset' (show zero ≤ s.zero by omega) (show s.zero ≤ last by omega)
          (show zero ≤ s.zero by omega) (show s.zero ≤ last + 2 ^ 31 by omega) (show (0 : Int) ≤ 0 by omega)
          (fun _ => rfl) (fun h => absurd hz h) (show (0 : Int) ≤ 2000000 by omega) (show (2000000 : Int) ≤ 2 ^ 60 by omega)
  exact key calls _ zero 0 rfl (by omega) (by omega) hmono hspan (by omega) hset (Int.le_refl zero) (Int.le_refl zero)
    (Int.le_refl zero) (show zero ≤ zero + 2 ^ 31 by omega) (show (0 : Int) ≤ 0 by omega) (fun _ => rfl) (fun h => absurd rfl h)
    (show (0 : Int) ≤ 2000000 by omega) (show (2000000 : Int) ≤ 2 ^ 60 by omega)

theorem backwards_succ (n : Nat) : backwards (n + 1) = backwards n ++ [.clock 1 (BitVec.ofInt 16 (-n))] := by
  unfold backwards
  rw [List.range_succ, List.map_append]
  rfl

theorem backwards_ticks (k : Nat) :
    ticksBetween (BitVec.ofInt 16 (-((k + 1 : Nat) : Int))) (BitVec.ofInt 16 (-(k : Int))) = 65535 := by
  rw [(C47_difference _ _).1, BitVec.toNat_ofInt, BitVec.toNat_ofInt]
  omega

/-- One more of these messages. -/
theorem backwards_run (k : Nat) (so : Int) (hk : k ≤ 366509468) :
    (Follower.mk 0 (BitVec.ofInt 16 (-(k : Int))) 1 1 (k * 2097120000) so).run
      [Call.clock 1 (BitVec.ofInt 16 (-((k + 1 : Nat) : Int)))] = (do
        let t ← Follower.recalcSecurityOffset ⟨0, BitVec.ofInt 16 (-((k + 1 : Nat) : Int)), 1, 1, ((k + 1 : Nat) : Int) * 2097120000, so⟩
        return (t, [])) := by
  have hp : Follower.processClock ⟨0, BitVec.ofInt 16 (-(k : Int)), 1, 1, k * 2097120000, so⟩ 1
      (BitVec.ofInt 16 (-((k + 1 : Nat) : Int))) =
      Follower.recalcSecurityOffset ⟨0, BitVec.ofInt 16 (-((k + 1 : Nat) : Int)), 1, 1, ((k + 1 : Nat) : Int) * 2097120000, so⟩ := by
    unfold Follower.processClock
    rw [if_neg (by show ¬(1 : Int) = 0; decide)]
    simp only
    rw [backwards_ticks, show chk64 (1 + ticksToNs 65535) = .ok 2097120001 from rfl, ok_bind,
      show chk64 (1 - 2097120001) = .ok (-2097120000) from rfl, ok_bind, if_pos (by decide), if_neg (by decide)]
    unfold Follower.updateStats
    rw [if_pos (by decide)]
    simp only
    rw [chk64_pos (by omega) (by omega), ok_bind,
      show (k : Int) * 2097120000 - -2097120000 = ((k + 1 : Nat) : Int) * 2097120000 by omega]
  rw [Follower.run]
  show (do let (s, o) ← (do return (← Follower.processClock _ _ _, [])); let (s, os) ← Follower.run s []; return (s, o ++ os)) = _
  rw [hp]
  cases Follower.recalcSecurityOffset _ with
  | error e => rfl
  | ok t => rfl

theorem backwards_step (k : Nat) (so : Int) (hk : k + 1 ≤ 366509468) :
    ∃ so', (Follower.mk 0 (BitVec.ofInt 16 (-(k : Int))) 1 1 (k * 2097120000) so).run
      [Call.clock 1 (BitVec.ofInt 16 (-((k + 1 : Nat) : Int)))] =
      .ok (⟨0, BitVec.ofInt 16 (-((k + 1 : Nat) : Int)), 1, 1, ((k + 1 : Nat) : Int) * 2097120000, so'⟩, []) := by
  rw [backwards_run k so (by omega)]
  unfold Follower.recalcSecurityOffset
  simp only
  rw [chk64_pos (by omega) (by omega), ok_bind]
  split
  · exact ⟨_, rfl⟩
  · exact ⟨_, rfl⟩

theorem backwards_state (k : Nat) (hk : k ≤ 366509468) :
    ∃ so, (Follower.init 0).run (backwards (k + 1)) =
      .ok (⟨0, BitVec.ofInt 16 (-k), 1, 1, k * 2097120000, so⟩, []) := by
  induction k with
  | zero => exact ⟨2000000, rfl⟩
  | succ k ih =>
    obtain ⟨so, h⟩ := ih (by omega)
    obtain ⟨so', h2⟩ := backwards_step k so (by omega)
    refine ⟨so', ?_⟩
    rw [backwards_succ (k + 1), run_append, h, ok_bind]
    simp only
    rw [h2]
    rfl

theorem backwards_overflow : (∀ t ∈ times (backwards 366509470), t = 1) ∧
    (Follower.init 0).run (backwards 366509470) = .error .signedOverflow := by
  constructor
  · intro t ht
    unfold times backwards at ht
    rw [List.mem_filterMap] at ht
    obtain ⟨c, hc, h⟩ := ht
    rw [List.mem_map] at hc
    obtain ⟨k, -, rfl⟩ := hc
    injection h with h
    exact h.symm
  · obtain ⟨so, h⟩ := backwards_state 366509468 (by decide)
    rw [backwards_succ 366509469, run_append, h, ok_bind]
    simp only
    rw [show ((366509469 : Nat) : Int) = ((366509468 + 1 : Nat) : Int) from rfl, backwards_run 366509468 so (by decide)]
    rfl

/-- C48: but the jitter estimate accumulates, and so there are sequences of clock messages that overflow it. -/
theorem C48_overflow : ∃ calls, (∀ t ∈ times calls, t = 1) ∧
    (Follower.init 0).run calls = .error .signedOverflow := ⟨_, backwards_overflow⟩

/-- C48: the number of clock messages that may arrive at the same time, with any timestamps, without an overflow. -/
theorem C48_clock_messages (n : Nat) :
    (∀ calls, (∀ t ∈ times calls, t = 1) → clocks calls ≤ n → (∀ o, Call.setOffset o ∈ calls → 0 ≤ o ∧ o ≤ 2 ^ 60) →
      ∃ s outs, (Follower.init 0).run calls = .ok (s, outs)) ↔ n < 366509470 := by
  constructor
  · intro h
    refine Decidable.byContradiction fun hn => ?_
    have hc : clocks (backwards 366509470) = 366509470 := by
      unfold clocks backwards
      rw [List.countP_map]
      exact (List.countP_eq_length.2 fun _ _ => rfl).trans List.length_range
    obtain ⟨s, outs, e⟩ := h _ backwards_overflow.1 (by rw [hc]; omega) fun o ho => by
      unfold backwards at ho
      obtain ⟨k, -, e⟩ := List.mem_map.1 ho
      cases e
    rw [backwards_overflow.2] at e
    cases e
  · intro hn calls ht hc hset
    refine C48_no_fault_partial 0 1 calls (by decide) (by decide) (by decide) ?_ (fun t h => by rw [ht t h]; decide) (by omega) hset
    rw [List.pairwise_cons]
    exact ⟨fun t h => by rw [ht t h]; decide, List.pairwise_of_forall_mem_list fun a ha b hb => by rw [ht a ha, ht b hb]⟩

/-- Calls for which the hypotheses of the C48 theorems hold: the second clock message arrives 5 ms late, and the jitter and
the security offset grow. -/
def someCalls : List Call :=
  [.clock 100000000 0, .schedule 101000000 10, .clock 205000000 3125, .schedule 205000000 3125]

example : ((Follower.init 0).run someCalls).map (fun p => (p.1.jitter, p.1.securityOffset, p.2)) =
    .ok (5000000, 6000000, [103000000 - 680000, 211000000]) := by decide +kernel

example : noOffset someCalls := by
  intro c hc o h
  subst h
  simp [someCalls] at hc

example : (0 :: times someCalls).Pairwise (· ≤ ·) ∧ (∀ t ∈ times someCalls, t ≤ 0 + 205000000) ∧
    205000000 + ((clocks someCalls : Int) - 1) * 2097120000 ≤ 768614336404564650 := by
  decide +kernel

-- the history before `reset` does not matter
example : ((Follower.init 0).run (someCalls ++ [.reset, .schedule 300000000 7])).map Prod.snd =
    .ok [102320000, 211000000, 302000000] := by decide +kernel

end Midi.Jr
