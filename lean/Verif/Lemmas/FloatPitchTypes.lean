import Verif.Lemmas.FloatPitch

namespace Midi.Fp

open Flt

/-- The common part of `pitch_7_9` and `pitch_7_25`: `n` bits, one semitone is `s`. -/
def pitchOf (F : Fmt) (n : ℕ) (s : ℚ) (f : Flt) : Except Fault (BitVec n) :=
  if f.le (fin 0) then .ok 0
  else if (fin 128).le f then .ok (BitVec.allOnes n)
  else if (mul F f (fin s)).stdRound.lt (fin (2 ^ n)) then (mul F f (fin s)).stdRound.toUnsigned n
  else .ok (BitVec.allOnes n)

theorem pitch79Of_eq (F : Fmt) (f : Flt) : pitch79Of F f = pitchOf F 16 512 f := by
  unfold pitch79Of pitchOf
  rw [show ((2 : ℚ) ^ 16) = 65536 by norm_num]
  rfl

theorem pitch725Of_eq (F : Fmt) (f : Flt) : pitch725Of F f = pitchOf F 32 33554432 f := by
  unfold pitch725Of pitchOf
  rw [show ((2 : ℚ) ^ 32) = 4294967296 by norm_num]
  rfl

/-- The result for a rational argument. -/
def pval (F : Fmt) (n : ℕ) (s : ℚ) (q : ℚ) : ℤ :=
  if q ≤ 0 then 0 else if 128 ≤ q then 2 ^ n - 1 else min ⌊round F (q * s) + 1 / 2⌋ (2 ^ n - 1)

/-- The result for any argument. -/
def pfval (F : Fmt) (n : ℕ) (s : ℚ) : Flt → ℤ
  | .nan => 2 ^ n - 1
  | .inf true => 0
  | .inf false => 2 ^ n - 1
  | .fin q => pval F n s q

theorem pow_pos' (n : ℕ) : 1 ≤ (2 : ℤ) ^ n := by
  have : 0 < (2 : ℤ) ^ n := Int.pow_pos (by decide)
  omega

theorem pval_range (F : Fmt) (n : ℕ) {s : ℚ} (hs : 0 < s) (q : ℚ) : 0 ≤ pval F n s q ∧ pval F n s q ≤ 2 ^ n - 1 := by
  have := pow_pos' n
  unfold pval
  split
  · omega
  · split
    · omega
    · have h : 0 ≤ round F (q * s) := round_nonneg (mul_nonneg (by linarith) (le_of_lt hs))
      have : 0 ≤ ⌊round F (q * s) + 1 / 2⌋ := Int.floor_nonneg.2 (by linarith)
      omega

theorem pfval_range (F : Fmt) (n : ℕ) {s : ℚ} (hs : 0 < s) (f : Flt) : 0 ≤ pfval F n s f ∧ pfval F n s f ≤ 2 ^ n - 1 := by
  have := pow_pos' n
  match f with
  | .nan => show 0 ≤ (2 : ℤ) ^ n - 1 ∧ (2 : ℤ) ^ n - 1 ≤ 2 ^ n - 1; omega
  | .inf true => show 0 ≤ (0 : ℤ) ∧ (0 : ℤ) ≤ 2 ^ n - 1; omega
  | .inf false => show 0 ≤ (2 : ℤ) ^ n - 1 ∧ (2 : ℤ) ^ n - 1 ≤ 2 ^ n - 1; omega
  | .fin q => exact pval_range F n hs q

theorem pval_mono {F : Fmt} (hp : 0 < F.prec) (n : ℕ) {s : ℚ} (hs : 0 < s) {q r : ℚ} (h : q ≤ r) :
    pval F n s q ≤ pval F n s r := by
  by_cases h0 : q ≤ 0
  · rw [pval, if_pos h0]; exact (pval_range F n hs r).1
  by_cases h1 : 128 ≤ r
  · have : pval F n s r = 2 ^ n - 1 := by rw [pval, if_neg (by linarith), if_pos h1]
    rw [this]; exact (pval_range F n hs q).2
  have e1 : pval F n s q = min ⌊round F (q * s) + 1 / 2⌋ (2 ^ n - 1) := by
    rw [pval, if_neg h0, if_neg (by linarith)]
  have e2 : pval F n s r = min ⌊round F (r * s) + 1 / 2⌋ (2 ^ n - 1) := by
    rw [pval, if_neg (by linarith), if_neg h1]
  rw [e1, e2]
  have := round_mono hp (mul_le_mul_of_nonneg_right h (le_of_lt hs))
  have : ⌊round F (q * s) + 1 / 2⌋ ≤ ⌊round F (r * s) + 1 / 2⌋ := Int.floor_le_floor (by linarith)
  omega

theorem pfval_mono {F : Fmt} (hp : 0 < F.prec) (n : ℕ) {s : ℚ} (hs : 0 < s) {f g : Flt} (h : f.le g = true) :
    pfval F n s f ≤ pfval F n s g := by
  match f, g with
  | .nan, _ => cases h
  | .fin _, .nan => cases h
  | .inf true, .nan => cases h
  | .inf false, .nan => cases h
  | .inf true, .inf _ => exact (pfval_range F n hs _).1
  | .inf true, .fin _ => exact (pfval_range F n hs _).1
  | .inf false, .inf false => exact le_refl _
  | .inf false, .inf true => cases h
  | .inf false, .fin _ => cases h
  | .fin q, .inf false => exact (pfval_range F n hs _).2
  | .fin q, .inf true => cases h
  | .fin q, .fin r => exact pval_mono hp n hs (of_decide_eq_true h)

theorem ofInt_max (n : ℕ) : BitVec.allOnes n = BitVec.ofInt n (2 ^ n - 1) := by
  have := pow_pos' n
  apply BitVec.eq_of_toNat_eq
  have h : ((2 ^ n : ℕ) : ℤ) = 2 ^ n := by push_cast; rfl
  rw [BitVec.toNat_allOnes, BitVec.toNat_ofInt, Int.emod_eq_of_lt (by omega) (by omega)]
  omega

theorem pitchOf_eq {F : Fmt} (hF : F = single ∨ F = double) (n : ℕ) {s : ℚ} (hs : 0 < s) (hs' : s ≤ 2 ^ 25) (f : Flt) :
    pitchOf F n s f = .ok (BitVec.ofInt n (pfval F n s f)) := by
  match f with
  | .nan => exact congrArg Except.ok (ofInt_max n)
  | .inf true => show Except.ok _ = Except.ok _; congr 1
  | .inf false => exact congrArg Except.ok (ofInt_max n)
  | .fin q =>
    unfold pfval pitchOf pval
    simp only [le_fin, decide_eq_true_eq]
    by_cases h0 : q ≤ 0
    · rw [if_pos h0, if_pos h0]; congr 1
    rw [if_neg h0, if_neg h0]
    by_cases h1 : 128 ≤ q
    · rw [if_pos h1, if_pos h1, ofInt_max]
    rw [if_neg h1, if_neg h1]
    have hpos : 0 ≤ q * s := mul_nonneg (by linarith) (le_of_lt hs)
    have hr : 0 ≤ round F (q * s) := round_nonneg hpos
    have e : mul F (fin q) (fin s) = fin (round F (q * s)) := by
      show ofRat F _ = _
      rw [ofRat_big hF]
      rw [abs_of_nonneg hpos]
      have := mul_le_mul (show q ≤ 128 by linarith) hs' (le_of_lt hs) (by norm_num)
      linarith
    have e2 : (fin (round F (q * s))).stdRound = fin (⌊round F (q * s) + 1 / 2⌋ : ℤ) := by
      show fin _ = _
      rw [if_pos hr]
    rw [e, e2]
    have hfl : 0 ≤ ⌊round F (q * s) + 1 / 2⌋ := Int.floor_nonneg.2 (by linarith)
    generalize ⌊round F (q * s) + 1 / 2⌋ = z at *
    have hl : (fin (z : ℚ)).lt (fin (2 ^ n)) = decide (z < 2 ^ n) := by
      show (!decide ((2 : ℚ) ^ n ≤ z)) = _
      rw [← decide_not]
      apply decide_eq_decide.2
      rw [not_le]
      exact_mod_cast Iff.rfl
    rw [hl]
    by_cases hz : z < 2 ^ n
    · rw [if_pos (by simpa using hz), toUnsigned_fin (by exact_mod_cast hfl) (by rw [Int.floor_intCast]; exact hz),
        Int.floor_intCast, Int.min_eq_left (by omega)]
    · rw [if_neg (by simpa using hz), Int.min_eq_right (by omega), ofInt_max]

theorem pitchOf_toNat {F : Fmt} (hF : F = single ∨ F = double) (n : ℕ) {s : ℚ} (hs : 0 < s) (hs' : s ≤ 2 ^ 25) (f : Flt) :
    ∃ v, pitchOf F n s f = .ok v ∧ (v.toNat : ℤ) = pfval F n s f := by
  obtain ⟨a, b⟩ := pfval_range F n hs f
  refine ⟨_, pitchOf_eq hF n hs hs' f, ?_⟩
  have h : ((2 ^ n : ℕ) : ℤ) = 2 ^ n := by push_cast; rfl
  rw [BitVec.toNat_ofInt, Int.emod_eq_of_lt a (by omega), Int.toNat_of_nonneg a]

/-- Multiplication with a power of two is exact. -/
theorem rep_mul {F : Fmt} {q : ℚ} (h : Rep F q) (k : ℕ) : Rep F (q * 2 ^ k) := by
  obtain ⟨m, e, h1, h2, h3⟩ := h
  refine ⟨m, e + k, h1, by omega, ?_⟩
  rw [h3, two_add, zpow_natCast]
  ring

/-- The result is the nearest value, if it is in range. -/
theorem pval_nearest {F : Fmt} (n k : ℕ) {q : ℚ} (h : Rep F q) (h0 : 0 ≤ q) (h1 : q < 128) :
    pval F n (2 ^ k) q = min ⌊q * 2 ^ k + 1 / 2⌋ (2 ^ n - 1) := by
  have := pow_pos' n
  unfold pval
  rw [round_rep (rep_mul h k)]
  split
  · have : q = 0 := by linarith
    subst this
    rw [zero_mul, show ⌊(0 : ℚ) + 1 / 2⌋ = 0 by decide +kernel]
    omega
  · rw [if_neg (by linarith)]

theorem pval_trip {F : Fmt} (n k : ℕ) {v : ℕ} (hv : v < 2 ^ n) (h128 : 2 ^ n = 128 * 2 ^ k)
    (hr : Rep F ((v : ℚ) / 2 ^ k)) : pval F n (2 ^ k) ((v : ℚ) / 2 ^ k) = v := by
  have hk : (0 : ℚ) < 2 ^ k := by positivity
  have hv' : (v : ℚ) < 128 * 2 ^ k := by
    have : v < 128 * 2 ^ k := by omega
    exact_mod_cast this
  rw [pval_nearest n k hr (div_nonneg (Nat.cast_nonneg _) (le_of_lt hk)) (by rw [div_lt_iff₀ hk]; exact hv')]
  rw [div_mul_cancel₀ _ (ne_of_gt hk)]
  have : ⌊(v : ℚ) + 1 / 2⌋ = (v : ℤ) := by
    rw [Int.floor_eq_iff]
    constructor
    · push_cast; linarith
    · push_cast; linarith
  rw [this]
  have : ((2 ^ n : ℕ) : ℤ) = 2 ^ n := by push_cast; rfl
  omega

end Midi.Fp
