import Verif.Model.Jitter
import Verif.Lemmas.CI

/-!
# Helper lemmas: what the calls of the clock follower do
-/

namespace Midi.Jr

theorem chk64_ok {x y : Int} (h : chk64 x = .ok y) : y = x ∧ -2 ^ 63 ≤ x ∧ x < 2 ^ 63 := by
  unfold chk64 at h
  split at h
  · injection h with h; exact ⟨h.symm, by assumption⟩
  · cases h

theorem chk64_pos {x : Int} (h1 : -2 ^ 63 ≤ x) (h2 : x < 2 ^ 63) : chk64 x = .ok x := if_pos ⟨h1, h2⟩

theorem bind_ok {α β : Type} {x : Except Fault α} {f : α → Except Fault β} {b : β} :
    (x >>= f) = .ok b ↔ ∃ a, x = .ok a ∧ f a = .ok b := by
  cases x with
  | error e =>
    constructor
    · intro h; cases h
    · rintro ⟨a, h, _⟩; cases h
  | ok a =>
    constructor
    · intro h; exact ⟨a, rfl, h⟩
    · rintro ⟨a', h1, h2⟩; injection h1 with h1; subst h1; exact h2

theorem ticks_range (a b : U16) : 0 ≤ ticksBetween a b ∧ ticksBetween a b ≤ 65535 := by
  unfold ticksBetween
  have := (BitVec.ofInt 16 (if (a.toNat : Int) - b.toNat < 0 then (a.toNat : Int) - b.toNat + 0x10000
    else (a.toNat : Int) - b.toNat)).isLt
  simp only
  omega

namespace Follower

/-- The jitter estimate after a clock message that arrives `j` later than expected. -/
def jitterAfter (jitter j : Int) : Int := if j < 0 then jitter - j else max jitter j

/-- The security offset for a new jitter estimate. -/
def offsetAfter (offset old new : Int) : Int := if new = old then offset else max offset (new * 12 / 10)

theorem tdiv10 {x : Int} (h : 0 ≤ x) : (x * 12).tdiv 10 = x * 12 / 10 := Int.tdiv_eq_ediv_of_nonneg (by omega)

theorem updateStats_ok {s s' : Follower} {j : Int} (h0 : 0 ≤ s.jitter) (h : s.updateStats j = .ok s') :
    s' = { s with jitter := jitterAfter s.jitter j,
                  securityOffset := offsetAfter s.securityOffset s.jitter (jitterAfter s.jitter j) } := by
  have recalc : ∀ t t' : Follower, 0 ≤ t.jitter → t.recalcSecurityOffset = .ok t' →
      t' = { t with securityOffset := max t.securityOffset (t.jitter * 12 / 10) } := by
    intro t t' ht h
    unfold recalcSecurityOffset at h
    rw [bind_ok] at h
    obtain ⟨v, hv, h⟩ := h
    obtain ⟨rfl, -⟩ := chk64_ok hv
    rw [tdiv10 ht] at h
    injection h with h
    rw [← h]
    split
    · rw [Int.max_eq_right (by omega)]
    · rw [Int.max_eq_left (by omega)]
  unfold updateStats at h
  unfold offsetAfter jitterAfter
  split at h
  · rename_i hj
    rw [bind_ok] at h
    obtain ⟨v, hv, h⟩ := h
    obtain ⟨rfl, -⟩ := chk64_ok hv
    rw [recalc _ _ (by show 0 ≤ s.jitter - j; omega) h, if_pos hj, if_neg (by omega)]
  · rename_i hj
    split at h
    · rename_i hj2
      rw [recalc _ _ (by show 0 ≤ j; omega) h, if_neg hj, Int.max_eq_right (a := s.jitter) (by omega), if_neg (by omega)]
    · rename_i hj2
      injection h with h
      rw [← h, if_neg hj, Int.max_eq_left (by omega), if_pos rfl]

/-- The time at which a message with this timestamp is expected. -/
def expected (s : Follower) (ts : U16) : Int := s.clockTime + 32000 * ticksBetween ts s.clockTs

theorem expected_ge (s : Follower) (ts : U16) : s.clockTime ≤ s.expected ts := by
  have := ticks_range ts s.clockTs; unfold expected; omega

theorem expected_lt (s : Follower) (ts : U16) : s.expected ts < s.clockTime + 2 ^ 31 := by
  have := ticks_range ts s.clockTs; unfold expected; omega

theorem processClock_first {s : Follower} {r : Int} {ts : U16} (h : s.clockTime = s.zero) :
    s.processClock r ts = .ok { s with clockTime := r, clockTs := ts, messageTime := r } := by
  unfold processClock; rw [if_pos h]; rfl

theorem processClock_ok {s s' : Follower} {r : Int} {ts : U16} (h0 : 0 ≤ s.jitter) (hz : s.clockTime ≠ s.zero)
    (h : s.processClock r ts = .ok s') :
    s' = { zero := s.zero, clockTs := ts, clockTime := min r (s.expected ts),
           messageTime := if r < s.expected ts then max s.messageTime r else r,
           jitter := jitterAfter s.jitter (r - s.expected ts),
           securityOffset := offsetAfter s.securityOffset s.jitter (jitterAfter s.jitter (r - s.expected ts)) } := by
  unfold processClock at h
  rw [if_neg hz] at h
  simp only [bind_ok] at h
  obtain ⟨e, he, j, hj, h⟩ := h
  obtain ⟨rfl, -⟩ := chk64_ok he
  obtain ⟨rfl, -⟩ := chk64_ok hj
  have hex : s.clockTime + ticksToNs (ticksBetween ts s.clockTs) = s.expected ts := by
    unfold expected ticksToNs; omega
  rw [hex] at h
  split at h
  · rename_i hlt
    split at h
    · rename_i hm
      rw [updateStats_ok (by exact h0) h, if_pos hlt, Int.min_eq_left (by omega), Int.max_eq_right (Int.le_of_lt hm)]
    · rename_i hm
      rw [updateStats_ok (by exact h0) h, if_pos hlt, Int.min_eq_left (by omega), Int.max_eq_left (by omega)]
  · rename_i hlt
    rw [updateStats_ok (by exact h0) h, if_neg hlt, Int.min_eq_right (by omega)]

theorem scheduleMessage_ok {s s' : Follower} {r t : Int} {ts : U16} (h : s.scheduleMessage r ts = .ok (s', t)) :
    s' = { s with messageTime := if s.clockTime ≠ s.zero then max s.messageTime (s.expected ts) else r } ∧
    t = s'.messageTime + s'.securityOffset := by
  have hex : s.clockTime + ticksToNs (ticksBetween ts s.clockTs) = s.expected ts := by
    unfold expected ticksToNs; omega
  unfold scheduleMessage at h
  split at h
  · rename_i hz
    simp only [bind_ok] at h
    obtain ⟨e, he, u, hu, h⟩ := h
    obtain ⟨rfl, -⟩ := chk64_ok he
    rw [hex] at *
    obtain ⟨rfl, -⟩ := chk64_ok hu
    injection h with h
    injection h with h1 h2
    have : s' = { s with messageTime := max s.messageTime (s.expected ts) } := by
      rw [← h1]
      split
      · rename_i hm; rw [Int.max_eq_right (Int.le_of_lt hm)]
      · rename_i hm; rw [Int.max_eq_left (by omega)]
    rw [if_pos hz]
    refine ⟨this, ?_⟩
    rw [← h2, ← h1]
  · rename_i hz
    simp only [bind_ok] at h
    obtain ⟨u, hu, h⟩ := h
    obtain ⟨rfl, -⟩ := chk64_ok hu
    injection h with h
    injection h with h1 h2
    rw [if_neg hz]
    refine ⟨h1.symm, ?_⟩
    rw [← h2, ← h1]

theorem jitterAfter_ge {jitter j : Int} (_h : 0 ≤ jitter) : jitter ≤ jitterAfter jitter j := by
  unfold jitterAfter; split <;> omega

theorem offsetAfter_ge (o a b : Int) : o ≤ offsetAfter o a b := by
  unfold offsetAfter; split <;> omega

end Follower

end Midi.Jr
