import Verif.Props.JitterExact
import Verif.Spec.Drift
import Mathlib.Tactic.Ring

/-!
# Property C98: senders whose clock runs at another rate
-/

namespace Midi.Jr
open Spec.Jr

theorem latencies_drifting (start r : Int) (k : Nat) (late : List Int) :
    latencies (drifting start r k late) = late.zipIdx.map fun x => start + x.2 * (r - 32000 * k) + x.1 := by
  unfold drifting latencies
  rw [List.filterMap_map, ← List.filterMap_eq_map]
  congr 1
  funext x
  simp only [Function.comp_apply]
  congr 1
  push_cast
  ring

/-- A smallest and a largest number. -/
theorem exists_min (l : List Int) (h : l ≠ []) : ∃ m, IsMin m l := by
  induction l with
  | nil => exact absurd rfl h
  | cons a l ih =>
    by_cases hl : l = []
    · subst hl; exact ⟨a, by simp, by simp⟩
    · obtain ⟨m, h1, h2⟩ := ih hl
      refine ⟨min a m, ?_, fun x hx => ?_⟩
      · rcases Int.le_total a m with h | h
        · rw [Int.min_eq_left h]; simp
        · rw [Int.min_eq_right h]; simp [h1]
      · rcases List.mem_cons.1 hx with rfl | hx
        · exact Int.min_le_left _ _
        · exact Int.le_trans (Int.min_le_right _ _) (h2 x hx)

theorem exists_max (l : List Int) (h : l ≠ []) : ∃ m, IsMax m l := by
  induction l with
  | nil => exact absurd rfl h
  | cons a l ih =>
    by_cases hl : l = []
    · subst hl; exact ⟨a, by simp, by simp⟩
    · obtain ⟨m, h1, h2⟩ := ih hl
      refine ⟨max a m, ?_, fun x hx => ?_⟩
      · rcases Int.le_total a m with h | h
        · rw [Int.max_eq_right h]; simp [h1]
        · rw [Int.max_eq_left h]; simp
      · rcases List.mem_cons.1 hx with rfl | hx
        · exact Int.le_max_left _ _
        · exact Int.le_trans (h2 x hx) (Int.le_max_right _ _)

/-- C98: a sender whose clock runs at another rate, with messages that are late by at most `j`: the jitter estimate differs from the
accumulated drift by at most `j`. It grows without limit as long as the rates differ, however exact the messages arrive. -/
theorem C98_jitter (zero start r j : Int) (k n : Nat) (late : List Int) (s : Follower) (outs : List Int) (hl : late.length = n + 1)
    (hj : ∀ x ∈ late, 0 ≤ x ∧ x ≤ j) (hi : Ideal zero (drifting start r k late))
    (hr : (Follower.init zero).run ((drifting start r k late).map Event.call) = .ok (s, outs)) :
    |drift r k n| - j ≤ s.jitter ∧ s.jitter ≤ |drift r k n| + j := by
  have hc := (C48_ideal_jitter zero _ s outs hi hr).2
  rw [latencies_drifting] at hc
  generalize hL : (late.zipIdx.map fun x => start + x.2 * (r - 32000 * (k : Int)) + x.1) = L at hc
  have hne : L ≠ [] := by
    rintro rfl
    have := congrArg List.length hL
    simp [hl] at this
  obtain ⟨lo, hlo⟩ := exists_min L hne
  obtain ⟨hi', hhi⟩ := exists_max L hne
  have e := hc lo hi' hlo hhi
  have mem : ∀ i, ∀ h : i < late.length, start + i * (r - 32000 * (k : Int)) + late[i] ∈ L := by
    intro i h
    rw [← hL]
    refine List.mem_map.2 ⟨(late[i], i), ?_, rfl⟩
    rw [List.mem_zipIdx_iff_getElem?]
    simp [h]
  have m0 := mem 0 (by omega)
  have mn := mem n (by omega)
  have b0 := hj late[0] (List.getElem_mem _)
  have bn := hj late[n] (List.getElem_mem _)
  have all : ∀ x ∈ L, start + min 0 (drift r k n) ≤ x ∧ x ≤ start + max 0 (drift r k n) + j := by
    intro x hx
    rw [← hL] at hx
    obtain ⟨⟨y, i⟩, hy, rfl⟩ := List.mem_map.1 hx
    have hy' := List.mem_zipIdx_iff_getElem?.1 hy
    obtain ⟨hi1, hi2⟩ := List.getElem?_eq_some_iff.1 hy'
    have by' := hj y (by rw [← show late[i] = y from hi2]; exact List.getElem_mem _)
    dsimp only at *
    have hin : (i : Int) ≤ n := by omega
    have h0 : (0 : Int) ≤ i := by omega
    unfold drift
    rcases Int.le_total 0 (r - 32000 * (k : Int)) with hd | hd
    · have a1 : 0 ≤ (i : Int) * (r - 32000 * (k : Int)) := Int.mul_nonneg h0 hd
      have a2 : (i : Int) * (r - 32000 * (k : Int)) ≤ n * (r - 32000 * (k : Int)) := Int.mul_le_mul_of_nonneg_right hin hd
      omega
    · have a1 : (i : Int) * (r - 32000 * (k : Int)) ≤ 0 := Int.mul_nonpos_of_nonneg_of_nonpos h0 hd
      have a2 : (n : Int) * (r - 32000 * (k : Int)) ≤ i * (r - 32000 * (k : Int)) := Int.mul_le_mul_of_nonpos_right hin hd
      omega
  have q1 := all lo hlo.1
  have q2 := all hi' hhi.1
  have p1 := hlo.2 _ m0
  have p2 := hlo.2 _ mn
  have p3 := hhi.2 _ m0
  have p4 := hhi.2 _ mn
  have ed : (n : Int) * (r - 32000 * (k : Int)) = drift r k n := rfl
  rw [ed] at p2 p4
  simp only [Nat.cast_zero, Int.zero_mul, Int.add_zero] at p1 p3
  rw [e]
  rcases abs_cases (drift r k n) with ⟨a, b⟩ | ⟨a, b⟩ <;> rw [a] <;> constructor <;> omega

/-- C98: a sender whose clock is fast by 2 ms in 100 ms. -/
example : ∃ s outs, Ideal 0 (drifting 1000 98000000 3125 [0, 5, 0, 7]) ∧
    (Follower.init 0).run ((drifting 1000 98000000 3125 [0, 5, 0, 7]).map Event.call) = .ok (s, outs) ∧ s.jitter = 5999993 ∧
    s.securityOffset = 7199991 := ⟨_, _, by decide, rfl, by decide +kernel, by decide +kernel⟩

theorem drifts_succ (start r : Int) (k n : Nat) :
    drifts start r k (n + 1) = drifts start r k n ++ [.clock ((n + 1) * k) (start + (n + 1 : Nat) * r)] := by
  unfold drifts
  rw [List.range_succ, List.map_append]
  rfl

theorem drift_succ (r : Int) (k n : Nat) : drift r k (n + 1) = drift r k n + (r - 32000 * k) := by
  unfold drift; push_cast; ring

theorem drift_sign (r : Int) (k n : Nat) : (0 ≤ r - 32000 * (k : Int) → 0 ≤ drift r k n) ∧ (r - 32000 * (k : Int) ≤ 0 → drift r k n ≤ 0) :=
  ⟨fun h => Int.mul_nonneg (by omega) h, fun h => Int.mul_nonpos_of_nonneg_of_nonpos (by omega) h⟩

theorem drift_received (start r : Int) (k n : Nat) : start + n * r - 32000 * (n * k : Nat) = start + drift r k n := by
  unfold drift; push_cast; ring

/-- The plan after clock messages of a drifting sender. -/
theorem plan_drifts (zero start r : Int) (k : Nat) (hr : 0 ≤ r) : ∀ n,
    Plan.run ⟨none, zero⟩ (drifts start r k n) =
      (⟨some (start + min 0 (drift r k n), start + max 0 (drift r k n)), start + n * r⟩, []) := by
  intro n
  induction n with
  | zero => simp [drifts, Plan.run, Plan.step, drift]
  | succ n ih =>
    have h1 := drift_sign r k n
    have e := drift_received start r k (n + 1)
    have e3 : (start : Int) + ((n + 1 : Nat) : Int) * r = start + n * r + r := by push_cast; ring
    rw [drifts_succ, plan_append, ih]
    simp only [Plan.step, List.append_nil]
    rw [e, drift_succ, e3]
    have f : (if start + (drift r k n + (r - 32000 * (k : Int))) < start + min 0 (drift r k n) then
        max (start + (n : Int) * r) (start + n * r + r) else start + n * r + r) = start + n * r + r := by
      split <;> omega
    rw [f]
    have g1 : min (start + (drift r k n + (r - 32000 * (k : Int)))) (start + min 0 (drift r k n)) =
        start + min 0 (drift r k n + (r - 32000 * (k : Int))) := by omega
    have g2 : max (start + (drift r k n + (r - 32000 * (k : Int)))) (start + max 0 (drift r k n)) =
        start + max 0 (drift r k n + (r - 32000 * (k : Int))) := by omega
    rw [g1, g2]

theorem ideal_drifts (zero start r received : Int) (k n d : Nat) (hz : zero < start) (hr : 0 ≤ r) (hk : k < 65536) (hd : d < 65536)
    (hrec : start + n * r ≤ received) : Ideal zero (drifts start r k n ++ [Event.message (n * k + d) received]) := by
  have lc : ∀ n, lastClock none (drifts start r k n) = some (n * k) := by
    intro n
    cases n with
    | zero => simp [drifts, lastClock, Event.isClock, Event.sent]
    | succ n => rw [drifts_succ, lastClock_append]; simp [Event.isClock, Event.sent]
  have mono : ∀ i, i ≤ n → (i * k ≤ n * k) ∧ start + (i : Int) * r ≤ start + n * r := by
    intro i hi
    refine ⟨Nat.mul_le_mul_right k hi, ?_⟩
    have := Int.mul_le_mul_of_nonneg_right (show (i : Int) ≤ n by omega) hr
    omega
  have pos : ∀ i : Nat, zero < start + (i : Int) * r := by
    intro i
    have := Int.mul_nonneg (show (0 : Int) ≤ i by omega) hr
    omega
  refine ⟨?_, ?_, ?_⟩
  · rw [List.pairwise_append]
    refine ⟨?_, by simp, ?_⟩
    · unfold drifts
      rw [List.pairwise_map]
      refine List.pairwise_lt_range.imp fun {a b} h => ?_
      refine ⟨Nat.mul_le_mul_right k (by omega), ?_⟩
      have := Int.mul_le_mul_of_nonneg_right (show (a : Int) ≤ b by omega) hr
      simp only [Event.received]
      omega
    · intro e he f hf
      obtain ⟨i, hi, rfl⟩ := List.mem_map.1 he
      rw [List.mem_singleton] at hf
      subst hf
      have := mono i (by have := List.mem_range.1 hi; omega)
      exact ⟨by simp only [Event.sent]; omega, by simp only [Event.received]; omega⟩
  · have cc : ∀ n, closeToClock none (drifts start r k n) = true := by
      intro n
      induction n with
      | zero => simp [drifts, closeToClock, near]
      | succ n ih =>
        rw [drifts_succ, closeToClock_append, ih, lc]
        simp [near, Event.sent, Nat.add_mul, hk]
    rw [closeToClock_append, cc, lc]
    simp [near, Event.sent, hd]
  · intro e he
    rcases List.mem_append.1 he with he | he
    · obtain ⟨i, -, rfl⟩ := List.mem_map.1 he
      exact pos i
    · rw [List.mem_singleton] at he
      subst he
      have := pos n
      simp only [Event.received]; omega

/-- C98: when a message is scheduled that follows `n + 1` clock messages of a sender whose clock runs at another rate, by `d` ticks of
the sender. With a fast clock, it is `d` ticks after the last clock message was received. With a slow one, the accumulated drift is
subtracted from the distance, until all messages are scheduled at the time of the clock message. In both cases 1.2 times the
accumulated drift is added, at least 2 ms. -/
theorem C98_scheduled (zero start r received : Int) (k n d : Nat) (hz1 : -2 ^ 62 ≤ zero) (hz2 : zero ≤ 2 ^ 62) (hz : zero < start)
    (hr : 0 ≤ r) (hk : k < 65536) (hd : d < 65536) (hrec : start + n * r ≤ received) (hs1 : received ≤ zero + 2 ^ 57)
    (hs2 : 32000 * ((n : Int) * k + d) < 2 ^ 57) :
    ∃ s, (Follower.init zero).run ((drifts start r k n ++ [Event.message (n * k + d) received]).map Event.call) =
      .ok (s, [start + n * r + max 0 (32000 * d - max 0 (drift r k n)) + max 2000000 (|drift r k n| * 12 / 10)]) := by
  have hi := ideal_drifts zero start r received k n d hz hr hk hd hrec
  obtain ⟨s, outs, h⟩ := C48_ideal_no_fault zero _ hz1 hz2 hi (by
    intro e he
    rcases List.mem_append.1 he with he | he
    · obtain ⟨i, hi, rfl⟩ := List.mem_map.1 he
      have := List.mem_range.1 hi
      have a := Int.mul_le_mul_of_nonneg_right (show (i : Int) ≤ n by omega) hr
      have b := Int.mul_le_mul_of_nonneg_right (show (i : Int) ≤ n by omega) (show (0 : Int) ≤ k by omega)
      constructor
      · simp only [Event.received]; omega
      · simp only [Event.sent]; push_cast; omega
    · rw [List.mem_singleton] at he
      subst he
      constructor
      · exact hs1
      · simp only [Event.sent]; push_cast; omega)
  refine ⟨s, ?_⟩
  rw [h]
  have e := C49_exactly zero _ s outs hi h
  rw [plan_append, plan_drifts zero start r k hr n] at e
  rw [e]
  simp only [Plan.step, Plan.offset, List.nil_append]
  have q := drift_received start r k n
  have q2 : 32000 * ((n * k + d : Nat) : Int) = 32000 * (n * k : Nat) + 32000 * d := by push_cast; ring
  have q3 : start + max 0 (drift r k n) - (start + min 0 (drift r k n)) = |drift r k n| := by
    rcases abs_cases (drift r k n) with ⟨a, b⟩ | ⟨a, b⟩ <;> rw [a] <;> omega
  rw [q2, q3]
  congr 4
  omega

/-- C98: after a day with a clock message every second from a sender whose clock is fast by 100 ppm, messages are delayed by more than
ten seconds; with a clock that is slow by 100 ppm as well, and all messages up to 8.64 s after the clock message at the same time. -/
example : (∃ s, (Follower.init 0).run ((drifts 1 999900000 31250 86400 ++ [Event.message (86400 * 31250 + 100) 86391360000001]).map
      Event.call) = .ok (s, [86391360000001 + 3200000 + 10368000000])) ∧
    (∃ s, (Follower.init 0).run ((drifts 1 1000100000 31250 86400 ++ [Event.message (86400 * 31250 + 100) 86408640000001]).map
      Event.call) = .ok (s, [86408640000001 + 10368000000])) :=
  ⟨C98_scheduled 0 1 999900000 86391360000001 31250 86400 100 (by decide) (by decide) (by decide) (by decide) (by decide) (by decide)
    (by decide) (by decide) (by decide),
   C98_scheduled 0 1 1000100000 86408640000001 31250 86400 100 (by decide) (by decide) (by decide) (by decide) (by decide) (by decide)
    (by decide) (by decide) (by decide)⟩

/-- C98: a gap between clock messages. Two clock messages of an exact sender, `g` ticks apart and both received without delay, and a
message `d` ticks later. As long as the gap is shorter than 65536 ticks (2.1 s), the message is scheduled after 2 ms. Otherwise the
gap counts as jitter, for every 65536 ticks with 2.1 s, and the message is scheduled accordingly later. -/
theorem C98_gap (zero start received : Int) (g d : Nat) (hz1 : -2 ^ 62 ≤ zero) (hz2 : zero ≤ 2 ^ 62) (hz : zero < start)
    (hd : d < 65536) (hrec : start + 32000 * g ≤ received) (hs : received ≤ zero + 2 ^ 57) :
    ∃ s, (Follower.init zero).run [.clock start 0, .clock (start + 32000 * g) (BitVec.ofNat 16 g),
        .schedule received (BitVec.ofNat 16 (g + d))] =
      .ok (s, [start + 32000 * g + max 0 (32000 * d - 2097152000 * ((g / 65536 : Nat) : Int)) +
        max 2000000 (2097152000 * ((g / 65536 : Nat) : Int) * 12 / 10)]) := by
  obtain ⟨s, h⟩ := C98_scheduled zero start (32000 * g) received (g % 65536) 1 d hz1 hz2 hz (by omega) (by omega) hd (by omega) hs (by
    omega)
  refine ⟨s, ?_⟩
  have e1 : BitVec.ofNat 16 (g % 65536) = BitVec.ofNat 16 g := BitVec.eq_of_toNat_eq (by simp)
  have e2 : BitVec.ofNat 16 (g % 65536 + d) = BitVec.ofNat 16 (g + d) := BitVec.eq_of_toNat_eq (by simp)
  have e3 : drift (32000 * g) (g % 65536) 1 = 2097152000 * ((g / 65536 : Nat) : Int) := by
    unfold drift
    have := Nat.div_add_mod g 65536
    omega
  have e4 : (drifts start (32000 * g) (g % 65536) 1 ++ [Event.message (1 * (g % 65536) + d) received]).map Event.call =
      [.clock start 0, .clock (start + 32000 * g) (BitVec.ofNat 16 g), .schedule received (BitVec.ofNat 16 (g + d))] := by
    simp only [drifts, List.range_succ, List.range_zero, List.nil_append, List.cons_append, List.map_cons, List.map_nil, Event.call,
      e2, Nat.zero_mul, Nat.one_mul, e1, Nat.cast_zero, Nat.cast_one, Int.zero_mul, Int.one_mul, Int.add_zero]
    rfl
  rw [e4, e3, abs_of_nonneg (by omega), max_eq_right (a := (0 : Int)) (b := 2097152000 * ((g / 65536 : Nat) : Int)) (by omega)] at h
  rw [h, Nat.cast_one, Int.one_mul]

/-- C98: a gap of 2 s makes no difference, after a gap of 3 s messages are delayed by 2.5 s. -/
example : (∃ s, (Follower.init 0).run [.clock 1 0, .clock (1 + 2000000000) 62500, .schedule 2000000001 62500] = .ok (s, [2002000001])) ∧
    (∃ s, (Follower.init 0).run [.clock 1 0, .clock (1 + 3000000000) 28214, .schedule 3000000001 28214] = .ok (s, [5516582401])) :=
  ⟨C98_gap 0 1 2000000001 62500 0 (by decide) (by decide) (by decide) (by decide) (by decide) (by decide),
   C98_gap 0 1 3000000001 93750 0 (by decide) (by decide) (by decide) (by decide) (by decide) (by decide)⟩

end Midi.Jr
