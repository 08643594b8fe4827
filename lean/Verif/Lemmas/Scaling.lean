import Verif.Lemmas.Bits
import Verif.Model.Types

/-!
# Helper lemmas: scaling of values
-/

namespace Midi

/-- Bit `i` after the loop: it was set before, or the repeat value has a bit at a distance that is a multiple of the
repeat length. -/
theorem repeatLoop_bit (n rb : Nat) (res rv : Word) (i : Nat) :
    (repeatLoop n rb res rv).getLsbD i = true ↔
      res.getLsbD i = true ∨ ∃ k, k < n ∧ rv.getLsbD (i + k * rb) = true := by
  induction n generalizing res rv with
  | zero => simp [repeatLoop]
  | succ n ih =>
    rw [repeatLoop]
    split
    · rw [ih]
      simp only [BitVec.getLsbD_or, Bool.or_eq_true, BitVec.getLsbD_ushiftRight]
      constructor
      · rintro ((h | h) | ⟨k, hk, h⟩)
        · exact Or.inl h
        · exact Or.inr ⟨0, by omega, by simpa using h⟩
        · refine Or.inr ⟨k + 1, by omega, ?_⟩
          rw [← h]; congr 1; rw [Nat.add_mul]; omega
      · rintro (h | ⟨k, hk, h⟩)
        · exact Or.inl (Or.inl h)
        · cases k with
          | zero => exact Or.inl (Or.inr (by simpa using h))
          | succ k =>
            refine Or.inr ⟨k, by omega, ?_⟩
            rw [← h]; congr 1; rw [Nat.add_mul]; omega
    · next h =>
      have h0 : rv = 0 := by simpa using h
      subst h0
      simp

theorem shift_toNat (x : Nat) (hx : x < 32) : ((1 : Word) <<< x).toNat = 2 ^ x := by
  have hp : 2 ^ x < 2 ^ 32 := Nat.pow_lt_pow_right (by omega) hx
  rw [BitVec.toNat_shiftLeft]
  simp only [BitVec.ofNat_eq_ofNat, BitVec.toNat_ofNat, Nat.shiftLeft_eq]
  rw [Nat.mod_eq_of_lt (show 1 < 2 ^ 32 by omega), Nat.one_mul]
  exact Nat.mod_eq_of_lt hp

/-- Bits of the mask `(1 << n) - 1`. -/
theorem mask_bit (n i : Nat) (hn : n < 32) : (((1 : Word) <<< n) - 1).getLsbD i = decide (i < n) := by
  have h1 : (((1 : Word) <<< n) - 1) = BitVec.ofNat 32 (2 ^ n - 1) := by
    apply BitVec.eq_of_toNat_eq
    have hp : 2 ^ n < 2 ^ 32 := Nat.pow_lt_pow_right (by omega) hn
    have hp1 : 1 ≤ 2 ^ n := Nat.one_le_two_pow
    rw [BitVec.toNat_sub, shift_toNat n hn, BitVec.toNat_ofNat]
    simp only [BitVec.ofNat_eq_ofNat, BitVec.toNat_ofNat]
    omega
  rw [h1, BitVec.getLsbD_ofNat, Nat.testBit_two_pow_sub_one]
  by_cases h : i < n
  · have : i < 32 := by omega
    simp [h, this]
  · simp [h]

/-- The shifted repeat value of `upsample_x_to_ybit`. -/
def repeatStart (v : Word) (rb s : Nat) : Word :=
  let rv := v &&& (((1 : Word) <<< rb) - 1)
  if s > rb then rv <<< (s - rb) else rv >>> (rb - s)

theorem repeatStart_bit (v : Word) (rb s j : Nat) (hrb : rb < 32) (hs : s < 32) :
    (repeatStart v rb s).getLsbD j = (decide (j < s) && decide (s ≤ j + rb) && v.getLsbD (j + rb - s)) := by
  unfold repeatStart
  simp only
  split
  · next h =>
    rw [BitVec.getLsbD_shiftLeft, BitVec.getLsbD_and, mask_bit _ _ hrb]
    by_cases h1 : j < s <;> by_cases h2 : s ≤ j + rb
    · have e : j - (s - rb) = j + rb - s := by omega
      have h3 : j < 32 := by omega
      have h4 : ¬ j < s - rb := by omega
      have h5 : j + rb - s < rb := by omega
      simp [e, h1, h2, h3, h4, h5]
    · have : j < s - rb := by omega
      simp [h2, this]
    · have : ¬ j - (s - rb) < rb := by omega
      simp [h1, this]
    · have : j < s - rb := by omega
      simp [h2, this]
  · next h =>
    rw [BitVec.getLsbD_ushiftRight, BitVec.getLsbD_and, mask_bit _ _ hrb]
    have e : rb - s + j = j + rb - s := by omega
    rw [e]
    have h2 : s ≤ j + rb := by omega
    by_cases h1 : j < s
    · have : j + rb - s < rb := by omega
      simp [h1, h2, this]
    · have : ¬ j + rb - s < rb := by omega
      simp [h1, this]

/-- The value computed by `upsample_x_to_ybit` for admissible depths. -/
def upsampleVal (v : Word) (x y : Nat) : Word :=
  if v ≤ (1 : Word) <<< (x - 1) then v <<< (y - x)
  else repeatLoop 32 (x - 1) (v <<< (y - x)) (repeatStart v (x - 1) (y - x))

theorem upsampleXtoY_ok (v : Word) (x y : Nat) (h1 : 1 < x) (h2 : x < y) (h3 : y ≤ 32) :
    upsampleXtoY v x y = .ok (upsampleVal v x y) := by
  unfold upsampleXtoY upsampleVal
  rw [assert_ok (by simp; omega)]
  simp only [ok_bind]
  split <;> rfl

theorem upsampleXtoY_fail (v : Word) (x y : Nat) (h : ¬ (1 < x ∧ x < y ∧ y ≤ 32)) :
    upsampleXtoY v x y = .error .assertFailed := by
  unfold upsampleXtoY
  rw [assert_fail]
  · rfl
  · simp; omega

/-- Bit `i` of the result in the case above the centre. -/
theorem upsample_bit_above (v : Word) (x y i : Nat) (h1 : 1 < x) (h2 : x < y) (h3 : y ≤ 32) :
    (repeatLoop 32 (x - 1) (v <<< (y - x)) (repeatStart v (x - 1) (y - x))).getLsbD i =
      if i < y - x then v.getLsbD (x - 2 - (y - x - 1 - i) % (x - 1))
      else (decide (i < 32) && v.getLsbD (i - (y - x))) := by
  rw [Bool.eq_iff_iff, repeatLoop_bit]
  have hrb : x - 1 < 32 := by omega
  have hs : y - x < 32 := by omega
  simp only [repeatStart_bit _ _ _ _ hrb hs, BitVec.getLsbD_shiftLeft]
  split
  · next hi =>
    simp only [Bool.and_eq_true, decide_eq_true_eq]
    constructor
    · rintro (⟨⟨_, h⟩, _⟩ | ⟨k, hk, ⟨ha, hb⟩, hc⟩)
      · simp [hi] at h
      · have ht : (y - x - 1 - i) % (x - 1) = y - x - 1 - i - k * (x - 1) := by
          have h5 : y - x - 1 - i = (y - x - 1 - i - k * (x - 1)) + k * (x - 1) := by omega
          rw [h5, Nat.add_mul_mod_self_right, Nat.mod_eq_of_lt (by omega)]
          omega
        have e : x - 2 - (y - x - 1 - i) % (x - 1) = i + k * (x - 1) + (x - 1) - (y - x) := by
          rw [ht]; omega
        rw [e]; exact hc
    · intro h
      refine Or.inr ⟨(y - x - 1 - i) / (x - 1), ?_, ?_, ?_⟩
      · calc (y - x - 1 - i) / (x - 1) ≤ y - x - 1 - i := Nat.div_le_self _ _
          _ < 32 := by omega
      · have hdm := Nat.div_add_mod (y - x - 1 - i) (x - 1)
        have hml := Nat.mod_lt (y - x - 1 - i) (show x - 1 > 0 by omega)
        rw [Nat.mul_comm] at hdm
        constructor <;> omega
      · have hdm := Nat.div_add_mod (y - x - 1 - i) (x - 1)
        have hml := Nat.mod_lt (y - x - 1 - i) (show x - 1 > 0 by omega)
        rw [Nat.mul_comm] at hdm
        have e : i + (y - x - 1 - i) / (x - 1) * (x - 1) + (x - 1) - (y - x) =
            x - 2 - (y - x - 1 - i) % (x - 1) := by omega
        rw [e]; exact h
  · next hi =>
    have hz : ∀ k, ¬ i + k * (x - 1) < y - x := by intro k; omega
    simp [hz, hi]

theorem le_center_iff (v : Word) (x : Nat) (hx : x - 1 < 32) :
    v ≤ (1 : Word) <<< (x - 1) ↔ v.toNat ≤ 2 ^ (x - 1) := by
  rw [BitVec.le_def, shift_toNat _ hx]

end Midi
