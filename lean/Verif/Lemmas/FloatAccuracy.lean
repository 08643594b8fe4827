import Verif.Lemmas.FloatPitch

/-! How far results are from the exact ones. -/

namespace Midi.Fp

open Flt

theorem Rep.scale {F : Fmt} {q : ℚ} (h : Rep F q) (k : ℕ) : Rep F (q * 2 ^ k) := by
  obtain ⟨m, e, h1, h2, rfl⟩ := h
  refine ⟨m, e + k, h1, by omega, ?_⟩
  rw [two_add, zpow_natCast, mul_assoc]

theorem Rep.widen {q : ℚ} (h : Rep single q) : Rep double q := by
  obtain ⟨m, e, h1, h2, rfl⟩ := h
  refine ⟨m, e, lt_of_lt_of_le h1 ?_, le_trans ?_ h2, rfl⟩ <;> decide

theorem Rep.double {F : Fmt} (hF : F = single ∨ F = double) {q : ℚ} (h : Rep F q) : Rep Fp.double q := by
  rcases hF with rfl | rfl
  · exact h.widen
  · exact h

/-- The lower half. -/
theorem val_low {K : ℕ} {q : ℚ} (h0 : 0 ≤ q) (h1 : q ≤ 1 / 2) (hr : Rep double (q * (2 * K))) :
    val K q = ⌊q * (2 * K)⌋ := by
  unfold val
  by_cases h : q ≤ 0
  · have : q = 0 := le_antisymm h h0
    subst this
    simp
  · rw [if_neg h, if_neg (by linarith), if_pos h1, round_rep hr]

/-- The upper half. -/
theorem val_high {K : ℕ} {q : ℚ} (hK : 1 ≤ K) (hK' : K ≤ 2 ^ 31) (h0 : 1 / 2 ≤ q) (h1 : q ≤ 1)
    (hr : Rep double (q * (2 * K))) : |(val K q : ℚ) - q * (2 * K - 1)| ≤ 1 / 2 + 1 / 2 ^ 10 := by
  have hk : (1 : ℚ) ≤ K := by exact_mod_cast hK
  have hKb : (K : ℚ) ≤ 2 ^ 31 := by exact_mod_cast hK'
  by_cases hh : q = 1 / 2
  · subst hh
    rw [val_low (by norm_num) (le_refl _) hr, show (1 : ℚ) / 2 * (2 * K) = (K : ℤ) by push_cast; ring, Int.floor_intCast, abs_le]
    push_cast
    constructor <;> linarith
  have h0' : 1 / 2 < q := lt_of_le_of_ne h0 (Ne.symm hh)
  by_cases h1' : q = 1
  · subst h1'
    have : val K 1 = 2 * K - 1 := by unfold val; rw [if_neg (by norm_num), if_pos (le_refl _)]
    rw [this]
    push_cast
    rw [one_mul, sub_self, abs_zero]
    norm_num
  have h1'' : q < 1 := lt_of_le_of_ne h1 h1'
  unfold val
  rw [if_neg (by linarith), if_neg (by linarith), if_neg (by linarith)]
  have herr := round_error (Or.inr rfl : double = single ∨ double = double) (x := q - 1 / 2) (by linarith) (by linarith)
  obtain ⟨-, -, hm⟩ := val_range_high hK hK' h0' h1''
  have hs0 : 0 ≤ round double (q - 1 / 2) := round_nonneg (by linarith)
  rw [show double.prec + 1 = 54 from rfl, abs_le] at herr
  generalize round double (q - 1 / 2) = s at herr hm hs0
  have hM : (0 : ℚ) < 2 * K - 1 := by linarith
  have hslo := mul_le_mul_of_nonneg_right (show q - 1 / 2 - 1 / 2 ^ 54 ≤ s by linarith) (le_of_lt hM)
  have hshi := mul_le_mul_of_nonneg_right (show s ≤ q - 1 / 2 + 1 / 2 ^ 54 by linarith) (le_of_lt hM)
  have e2 : |round double (s * (2 * K - 1)) - s * (2 * K - 1)| ≤ 1 / 2 ^ 20 := by
    rcases eq_or_lt_of_le (mul_nonneg hs0 (le_of_lt hM)) with h | h
    · rw [← h, round_zero]; norm_num
    · have := round_absolute (F := double) (k := 31) h
        (show _ < (2 : ℚ) ^ (32 : ℤ) by
          rw [show (32 : ℤ) = ((32 : ℕ) : ℤ) from rfl, zpow_natCast]; linarith) (by decide)
      refine le_trans this ?_
      rw [show (31 : ℤ) - (double.prec : ℤ) = -((22 : ℕ) : ℤ) from rfl, pow_eq]
      norm_num
  rw [abs_le] at e2
  have f1 := Int.floor_le (round double (s * (2 * K - 1)))
  have f2 := Int.lt_floor_add_one (round double (s * (2 * K - 1)))
  push_cast
  rw [abs_le]
  constructor <;> linarith

/-- Both halves. -/
theorem val_near {K : ℕ} {q : ℚ} (hK : 1 ≤ K) (hK' : K ≤ 2 ^ 31) (h0 : 0 ≤ q) (h1 : q ≤ 1)
    (hr : Rep double (q * (2 * K))) :
    |(val K q : ℚ) - q * (2 * K - 1)| < 1 ∧ (1 / 4 ≤ q → |(val K q : ℚ) - q * (2 * K - 1)| ≤ 3 / 4) := by
  by_cases hh : q ≤ 1 / 2
  · rw [val_low h0 hh hr]
    have f1 := Int.floor_le (q * (2 * K))
    have f2 := Int.lt_floor_add_one (q * (2 * K))
    constructor
    · rw [abs_lt]
      constructor <;> linarith
    · intro h4
      rw [abs_le]
      constructor <;> linarith
  · have := val_high hK hK' (by linarith) h1 hr
    rw [abs_le] at this
    constructor
    · rw [abs_lt]; constructor <;> linarith
    · intro _; rw [abs_le]; constructor <;> linarith

/-- The errors of fractions. -/
def fracError (F : Fmt) : ℚ := if F = double then 1 / 2 ^ 54 else 1 / 2 ^ 25 + 1 / 2 ^ 54

theorem round_error' {F : Fmt} (hF : F = single ∨ F = double) {x : ℚ} (h0 : 0 ≤ x) (h1 : x ≤ 1) :
    |round F x - x| ≤ 1 / 2 ^ (F.prec + 1) := by
  rcases eq_or_lt_of_le h0 with h | h
  · rw [← h, round_zero, sub_self, abs_zero]; positivity
  rcases eq_or_lt_of_le h1 with h' | h'
  · rw [h', round_rep (rep_one hF), sub_self, abs_zero]; positivity
  · exact round_error hF h h'

theorem twice_error {F : Fmt} (hF : F = single ∨ F = double) {x : ℚ} (h0 : 0 ≤ x) (h1 : x ≤ 1) :
    |round F (round double x) - x| ≤ fracError F := by
  have e1 := round_error' (Or.inr rfl : double = single ∨ double = double) h0 h1
  rw [show double.prec + 1 = 54 from rfl] at e1
  have r := round01 (Or.inr rfl : double = single ∨ double = double) h0 h1
  rcases hF with rfl | rfl
  · have e2 := round_error' (Or.inl rfl : single = single ∨ single = double) r.1 r.2
    rw [show single.prec + 1 = 25 from rfl] at e2
    rw [fracError, if_neg (by decide)]
    rw [abs_le] at *
    constructor <;> linarith
  · rw [round_idem _ double_prec, fracError, if_pos rfl]; exact e1

theorem tval_near {F : Fmt} (hF : F = single ∨ F = double) {K v : ℕ} (hK : 1 ≤ K) (hv : v < 2 * K)
    (hrep : Rep double ((v : ℚ) / (2 * K))) :
    |tval F K v - (if v ≤ K then (v : ℚ) / (2 * K) else v / (2 * K - 1))| ≤ fracError F := by
  have hk : (1 : ℚ) ≤ K := by exact_mod_cast hK
  have hv0 : (0 : ℚ) ≤ v := Nat.cast_nonneg _
  have hv1 : (v : ℚ) ≤ 2 * K - 1 := by
    have : (v : ℚ) + 1 ≤ 2 * K := by exact_mod_cast (by omega : v + 1 ≤ 2 * K)
    linarith
  unfold tval
  by_cases h : v ≤ K
  · rw [if_pos h, if_pos h]
    have hr := quot_range hv0 (show (0 : ℚ) < 2 * K by linarith) (by linarith)
    have := twice_error hF hr.1 hr.2
    rw [round_rep hrep] at this
    exact this
  · rw [if_neg h, if_neg h]
    have hr := quot_range hv0 (show (0 : ℚ) < 2 * K - 1 by linarith) hv1
    exact twice_error hF hr.1 hr.2

theorem rep_tval {F : Fmt} (hF : F = single ∨ F = double) (K v : ℕ) : Rep double (tval F K v) := by
  unfold tval
  split
  · exact (rep_round (fmt_prec hF) _).double hF
  · exact (rep_round (fmt_prec hF) _).double hF

/-- `(f + 1) / 2`: only the sum is rounded, and it is exact far from zero. -/
theorem bend_near {F : Fmt} (hF : F = single ∨ F = double) {q : ℚ} (hq : Rep F q) (h0 : -1 ≤ q) (h1 : q ≤ 1) :
    ∃ r, bend F (fin q) = fin r ∧ Rep F r ∧ 0 ≤ r ∧ r ≤ 1 ∧ |r - (q + 1) / 2| ≤ 1 / 2 ^ (F.prec + 1) ∧
      (r = (q + 1) / 2 ∨ 1 / 4 ≤ r) := by
  have hp := fmt_prec hF
  have two : Rep F 2 := by rcases hF with rfl | rfl <;> exact ⟨1, 1, by decide, by decide, by norm_num⟩
  have r0 : 0 ≤ round F (q + 1) := round_nonneg (by linarith)
  have r2 : round F (q + 1) ≤ 2 := round_le hp (by linarith) two
  have es : add F (fin q) (fin 1) = fin (round F (q + 1)) := by
    show ofRat F (q + 1) = _
    rw [ofRat_big hF]
    rw [abs_of_nonneg (by linarith)]
    norm_num
    linarith
  have he : |round F (q + 1) - (q + 1)| ≤ 1 / 2 ^ F.prec := by
    rcases eq_or_lt_of_le (show 0 ≤ q + 1 by linarith) with h | h
    · rw [← h, round_zero, sub_self, abs_zero]; positivity
    rcases eq_or_lt_of_le (show q + 1 ≤ 2 by linarith) with h' | h'
    · rw [h', round_rep two, sub_self, abs_zero]; positivity
    · have := round_absolute (F := F) (k := 0) h (by simpa using h') (by rcases hF with rfl | rfl <;> decide)
      rw [zero_sub, pow_eq] at this
      exact this
  -- exact far from zero
  have hex : q ≤ -(1 / 2) → ∃ m : ℤ, |m| < 2 ^ F.prec ∧ q + 1 = m * 2 ^ (-(F.prec : ℤ)) := by
    intro hh
    obtain ⟨m, e, hm, hee, rfl⟩ := hq
    have hm' := rep_lt hm
    have hpos := two_pos e
    have hel : -(F.prec : ℤ) ≤ e := by
      by_contra hc
      have hlt : (2 : ℚ) ^ e ≤ 2 ^ (-(F.prec : ℤ) - 1) := two_le (by omega)
      have : |(m : ℚ) * 2 ^ e| < 1 / 2 := by
        rw [abs_mul, abs_of_pos hpos]
        calc |(m : ℚ)| * 2 ^ e ≤ |(m : ℚ)| * 2 ^ (-(F.prec : ℤ) - 1) := mul_le_mul_of_nonneg_left hlt (abs_nonneg _)
          _ < 2 ^ (F.prec : ℤ) * 2 ^ (-(F.prec : ℤ) - 1) := mul_lt_mul_of_pos_right hm' (two_pos _)
          _ = 1 / 2 := by rw [← two_add, show (F.prec : ℤ) + (-(F.prec : ℤ) - 1) = -1 by ring]; norm_num
      rw [abs_lt] at this
      linarith
    obtain ⟨n, hn⟩ := multiple hel m
    have hone : (2 : ℚ) ^ (F.prec : ℤ) * 2 ^ (-(F.prec : ℤ)) = 1 := by rw [← two_add, add_neg_cancel, zpow_zero]
    refine ⟨n + 2 ^ F.prec, ?_, ?_⟩
    · have hpp := two_pos (-(F.prec : ℤ))
      have hpp' := two_pos (F.prec : ℤ)
      rw [hn] at h0 hh
      have a1 : (0 : ℚ) ≤ n + 2 ^ (F.prec : ℤ) := by
        by_contra hc
        have := mul_lt_mul_of_pos_right (not_le.1 hc) hpp
        rw [add_mul, hone, zero_mul] at this
        linarith
      have a2 : (n : ℚ) < 0 := by
        by_contra hc
        have := mul_nonneg (not_lt.1 hc) (le_of_lt hpp)
        linarith
      have a2' : n < 0 := by exact_mod_cast a2
      have a1' : 0 ≤ n + 2 ^ F.prec := by
        rw [zpow_natCast] at a1
        exact_mod_cast a1
      rw [abs_of_nonneg a1']
      linarith
    · rw [hn]
      push_cast
      rw [add_mul, ← zpow_natCast, hone]
  have hrep : Rep F (round F (q + 1) / 2) := by
    by_cases hh : q ≤ -(1 / 2)
    · obtain ⟨m, hm, e⟩ := hex hh
      have : Rep F (q + 1) := ⟨m, _, hm, by rcases hF with rfl | rfl <;> decide, e⟩
      rw [round_rep this, e]
      refine ⟨m, -(F.prec : ℤ) - 1, hm, by rcases hF with rfl | rfl <;> decide, ?_⟩
      rw [show -(F.prec : ℤ) - 1 = -(F.prec : ℤ) + -1 by ring, two_add]
      norm_num
      ring
    · have hge : 1 / 2 ≤ round F (q + 1) := le_round hp (by linarith) (rep_half hF)
      obtain ⟨m, e, hm, hee, em⟩ := rep_round hp (q + 1)
      have hm' := rep_lt hm
      have hpos := two_pos e
      have hel : -(F.prec : ℤ) ≤ e := by
        by_contra hc
        have hlt : (2 : ℚ) ^ e ≤ 2 ^ (-(F.prec : ℤ) - 1) := two_le (by omega)
        have : |(m : ℚ) * 2 ^ e| < 1 / 2 := by
          rw [abs_mul, abs_of_pos hpos]
          calc |(m : ℚ)| * 2 ^ e ≤ |(m : ℚ)| * 2 ^ (-(F.prec : ℤ) - 1) := mul_le_mul_of_nonneg_left hlt (abs_nonneg _)
            _ < 2 ^ (F.prec : ℤ) * 2 ^ (-(F.prec : ℤ) - 1) := mul_lt_mul_of_pos_right hm' (two_pos _)
            _ = 1 / 2 := by rw [← two_add, show (F.prec : ℤ) + (-(F.prec : ℤ) - 1) = -1 by ring]; norm_num
        rw [abs_lt, ← em] at this
        linarith
      refine ⟨m, e - 1, hm, ?_, ?_⟩
      · rcases hF with rfl | rfl
        · show (-149 : ℤ) ≤ _
          have : (-24 : ℤ) ≤ e := hel
          omega
        · show (-1074 : ℤ) ≤ _
          have : (-53 : ℤ) ≤ e := hel
          omega
      · rw [em, show e - 1 = e + -1 by ring, two_add]
        norm_num
        ring
  refine ⟨round F (q + 1) / 2, ?_, hrep, by linarith, by linarith, ?_, ?_⟩
  · unfold bend
    rw [es, div_fin _ _ (by norm_num), ofRat_big hF (abs_le_one (by linarith) (by linarith)), round_rep hrep]
  · rw [pow_succ]
    rw [abs_le] at he ⊢
    have : (1 : ℚ) / (2 ^ F.prec * 2) = 1 / 2 ^ F.prec / 2 := by rw [div_div]
    rw [this]
    constructor <;> linarith
  · by_cases hh : q ≤ -(1 / 2)
    · obtain ⟨m, hm, e⟩ := hex hh
      have : Rep F (q + 1) := ⟨m, _, hm, by rcases hF with rfl | rfl <;> decide, e⟩
      left
      rw [round_rep this]
    · right
      have hge : 1 / 2 ≤ round F (q + 1) := le_round hp (by linarith) (rep_half hF)
      linarith

end Midi.Fp
