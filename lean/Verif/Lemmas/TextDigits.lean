import Verif.Lemmas.Text
import Verif.Spec.Text

/-!
# Helper lemmas: the eight digits of a word
-/

namespace Midi
open Spec

theorem hexadecimal_digitChar : ∀ d, d < 16 → hexadecimal.getD d '?' = Nat.digitChar d := by decide

theorem length_lastDigits (n v : Nat) : (lastDigits n v).length = n := by simp [lastDigits]

theorem lastDigits_succ (n v : Nat) : lastDigits (n + 1) v = lastDigits n (v / 16) ++ [Nat.digitChar (v % 16)] := by
  unfold lastDigits
  rw [List.range_succ, List.map_append]
  congr 1
  · apply List.map_congr_left
    intro i hi
    have hi := List.mem_range.1 hi
    congr 1
    rw [show n + 1 - 1 - i = (n - 1 - i) + 1 by omega, Nat.pow_succ, Nat.mul_comm, ← Nat.div_div_eq_div_mul]
  · simp only [List.map_cons, List.map_nil, Nat.add_sub_cancel, Nat.sub_self, Nat.pow_zero, Nat.div_one]
    rw [hexadecimal_digitChar _ (Nat.mod_lt _ (by decide))]

theorem padded_lastDigits (n v : Nat) (h : v < 16 ^ (n + 1)) :
    List.replicate (n + 1 - (Nat.toDigits 16 v).length) '0' ++ Nat.toDigits 16 v = lastDigits (n + 1) v := by
  induction n generalizing v with
  | zero =>
    rw [Nat.toDigits_of_lt_base (by simpa using h), lastDigits_succ, Nat.mod_eq_of_lt (by simpa using h)]
    rfl
  | succ n ih =>
    rw [lastDigits_succ]
    have hd := ih (v / 16) (Nat.div_lt_of_lt_mul (by rw [Nat.pow_succ] at h; omega))
    by_cases hv : v < 16
    · rw [Nat.div_eq_of_lt hv] at hd
      rw [Nat.div_eq_of_lt hv, ← hd, Nat.toDigits_of_lt_base hv, Nat.mod_eq_of_lt hv,
        Nat.toDigits_of_lt_base (show 0 < 16 by decide)]
      simp only [List.length_cons, List.length_nil, Nat.zero_add, Nat.add_sub_cancel]
      rw [List.replicate_succ', show Nat.digitChar 0 = '0' from rfl]
    · rw [Nat.toDigits_of_base_le (by decide) (by omega), ← hd, List.length_append, List.length_cons, List.length_nil,
        ← List.append_assoc]
      congr 3
      omega

theorem hexPadded_eq (v : Word) : hexPadded v = lastDigits 8 v.toNat := padded_lastDigits 7 _ v.isLt

theorem lastDigits_inj {n a b : Nat} (ha : a < 16 ^ n) (hb : b < 16 ^ n) (h : lastDigits n a = lastDigits n b) : a = b := by
  induction n generalizing a b with
  | zero => simp at ha hb; omega
  | succ n ih =>
    rw [lastDigits_succ, lastDigits_succ] at h
    obtain ⟨h1, h2⟩ := List.append_inj' h rfl
    have e1 := ih (Nat.div_lt_of_lt_mul (by rw [Nat.pow_succ] at ha; omega))
      (Nat.div_lt_of_lt_mul (by rw [Nat.pow_succ] at hb; omega)) h1
    have inj : ∀ x, x < 16 → ∀ y, y < 16 → Nat.digitChar x = Nat.digitChar y → x = y := by decide
    have e2 := inj _ (Nat.mod_lt a (by decide)) _ (Nat.mod_lt b (by decide)) (by simpa using h2)
    omega

theorem lastDigits_upper (n v : Nat) :
    (∀ c ∈ lastDigits n v, c.toUpper = c) ↔ ∀ i, i < n → v / 16 ^ i % 16 < 10 := by
  have key : ∀ d, d < 16 → ((hexadecimal.getD d '?').toUpper = hexadecimal.getD d '?' ↔ d < 10) := by decide
  unfold lastDigits
  simp only [List.mem_map, List.mem_range]
  constructor
  · intro h i hi
    have := h _ ⟨n - 1 - i, by omega, rfl⟩
    rw [key _ (Nat.mod_lt _ (by decide)), show n - 1 - (n - 1 - i) = i by omega] at this
    exact this
  · rintro h c ⟨i, hi, rfl⟩
    exact (key _ (Nat.mod_lt _ (by decide))).2 (h _ (by omega))

theorem hexDigits_upper (v : Word) : (∀ c ∈ hexDigits v, c.toUpper = c) ↔ ∀ i, i < 8 → v.toNat / 16 ^ i % 16 < 10 := by
  rw [← lastDigits_upper, ← hexPadded_eq]
  unfold hexPadded
  constructor
  · intro h c hc
    rcases List.mem_append.1 hc with hc | hc
    · rw [List.eq_of_mem_replicate hc]; rfl
    · exact h c hc
  · exact fun h c hc => h c (List.mem_append_right _ hc)

end Midi
