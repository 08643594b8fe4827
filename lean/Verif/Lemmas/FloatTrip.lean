import Verif.Lemmas.FloatConvert

namespace Midi.Fp

open Flt

theorem div_fin (F : Fmt) (x : ℚ) {y : ℚ} (h : y ≠ 0) : div F (fin x) (fin y) = ofRat F (x / y) := if_neg h

/-! Conversion to the interval from 0 to 1. -/

/-- The result for the value `v`: the middle of the range is `K`. -/
def tval (F : Fmt) (K v : ℕ) : ℚ :=
  if v ≤ K then round F (v / (2 * K)) else round F (round double (v / (2 * K - 1)))

theorem round_idem (F : Fmt) (hp : 0 < F.prec) (x : ℚ) : round F (round F x) = round F x := round_rep (rep_round hp x)

theorem tval_double {K v : ℕ} (h : Rep double ((v : ℚ) / (2 * K))) : tval double K v =
    if v ≤ K then (v : ℚ) / (2 * K) else round double (v / (2 * K - 1)) := by
  unfold tval
  rw [round_idem _ double_prec, round_rep h]

theorem abs_le_one {x : ℚ} (h0 : 0 ≤ x) (h1 : x ≤ 1) : |x| ≤ 2 ^ 64 := by
  rw [abs_of_nonneg h0]; norm_num; linarith

theorem quot_range {v M : ℚ} (hv : 0 ≤ v) (hM : 0 < M) (h : v ≤ M) : 0 ≤ v / M ∧ v / M ≤ 1 :=
  ⟨div_nonneg hv (le_of_lt hM), (div_le_one hM).2 h⟩

theorem rep_one {F : Fmt} (hF : F = single ∨ F = double) : Rep F 1 := by
  rcases hF with rfl | rfl <;> exact ⟨1, 0, by decide, by decide, by norm_num⟩

theorem rep_half {F : Fmt} (hF : F = single ∨ F = double) : Rep F (1 / 2) := by
  rcases hF with rfl | rfl <;> exact ⟨1, -1, by decide, by decide, by norm_num⟩

theorem fmt_prec {F : Fmt} (hF : F = single ∨ F = double) : 0 < F.prec := by
  rcases hF with rfl | rfl <;> decide

theorem round01 {F : Fmt} (hF : F = single ∨ F = double) {x : ℚ} (h0 : 0 ≤ x) (h1 : x ≤ 1) :
    0 ≤ round F x ∧ round F x ≤ 1 := ⟨round_nonneg h0, round_le (fmt_prec hF) h1 (rep_one hF)⟩

theorem toFloat01_eq {F : Fmt} (hF : F = single ∨ F = double) {n : ℕ} (hn : 1 ≤ n) (hn' : n ≤ 32) (v : BitVec n) :
    toFloat01 F v = fin (tval F (2 ^ (n - 1)) v.toNat) ∧ Rep double ((v.toNat : ℚ) / (2 * (2 ^ (n - 1) : ℕ))) := by
  have h : 2 ^ n = 2 * 2 ^ (n - 1) := by rw [← Nat.pow_succ']; congr 1; omega
  have hp : 1 ≤ 2 ^ (n - 1) := Nat.two_pow_pos _
  have hK : 2 ^ (n - 1) ≤ 2 ^ 31 := Nat.pow_le_pow_right (by omega) (by omega)
  have hv : v.toNat < 2 * 2 ^ (n - 1) := by rw [← h]; exact v.isLt
  have hk : (1 : ℚ) ≤ (2 ^ (n - 1) : ℕ) := by exact_mod_cast hp
  have hmax : ((2 ^ n - 1 : ℕ) : ℚ) = 2 * (2 ^ (n - 1) : ℕ) - 1 := by
    rw [h, Nat.cast_sub (by omega)]; push_cast; ring
  have hv0 : (0 : ℚ) ≤ v.toNat := Nat.cast_nonneg _
  have hv1 : (v.toNat : ℚ) ≤ 2 * (2 ^ (n - 1) : ℕ) - 1 := by
    rw [← hmax]; exact_mod_cast (by omega : v.toNat ≤ 2 ^ n - 1)
  have habs : |(v.toNat : ℤ)| < 2 ^ double.prec := by
    rw [abs_of_nonneg (by omega)]
    show (v.toNat : ℤ) < 2 ^ 53
    omega
  have r1 : Rep double ((v.toNat : ℚ) / (2 ^ (n - 1) : ℕ)) := by
    have := rep_div (F := double) (n - 1) (show (-1074 : ℤ) ≤ _ by omega) v.toNat habs
    rw [Nat.cast_pow]
    exact this
  have r2 : Rep double ((v.toNat : ℚ) / (2 * (2 ^ (n - 1) : ℕ))) := by
    have := rep_div (F := double) n (show (-1074 : ℤ) ≤ _ by omega) v.toNat habs
    have e : (2 : ℚ) * (2 ^ (n - 1) : ℕ) = 2 ^ n := by exact_mod_cast h.symm
    rw [e]
    exact this
  refine ⟨?_, r2⟩
  unfold toFloat01 tval
  have hle : (v ≤ BitVec.allOnes n >>> 1 + 1) ↔ v.toNat ≤ 2 ^ (n - 1) := by
    rw [BitVec.le_def, mid_toNat hn]
  simp only [hmax]
  by_cases hc : v.toNat ≤ 2 ^ (n - 1)
  · rw [if_pos (hle.2 hc), if_pos hc]
    have e0 : ofUnsigned (BitVec.allOnes n >>> 1 + 1) = fin (2 ^ (n - 1) : ℕ) := by
      unfold ofUnsigned; rw [mid_toNat hn]
    rw [e0]
    generalize 2 ^ (n - 1) = K at *
    have hq : (v.toNat : ℚ) ≤ K := by exact_mod_cast hc
    have hr := quot_range hv0 (by linarith) hq
    have e1 : div double (ofUnsigned v) (fin K) = fin ((v.toNat : ℚ) / K) := by
      show (if (K : ℚ) = 0 then _ else ofRat double _) = _
      rw [if_neg (by linarith), ofRat_double (abs_le_one hr.1 hr.2), round_rep r1]
    have e2 : div double (fin ((v.toNat : ℚ) / K)) (fin 2) = fin ((v.toNat : ℚ) / (2 * K)) := by
      have e : (v.toNat : ℚ) / K / 2 = (v.toNat : ℚ) / (2 * K) := by rw [div_div]; ring
      rw [div_fin _ _ (by norm_num), e, ofRat_double, round_rep r2]
      rw [← e]
      exact abs_le_one (by linarith) (by linarith)
    rw [e1, e2]
    show ofRat F _ = _
    have hr := quot_range hv0 (show (0 : ℚ) < 2 * K by linarith) (by linarith)
    rw [ofRat_big hF (abs_le_one hr.1 hr.2)]
  · rw [if_neg (fun h => hc (hle.1 h)), if_neg hc]
    generalize 2 ^ (n - 1) = K at *
    have hr := quot_range hv0 (show (0 : ℚ) < 2 * K - 1 by linarith) hv1
    have e1 : div double (ofUnsigned v) (fin (2 * (K : ℚ) - 1)) = fin (round double ((v.toNat : ℚ) / (2 * K - 1))) := by
      show (if (2 * (K : ℚ) - 1) = 0 then _ else ofRat double _) = _
      rw [if_neg (by linarith), ofRat_double (abs_le_one hr.1 hr.2)]
    rw [e1]
    show ofRat F _ = _
    have hr' := round01 (Or.inr rfl : double = single ∨ double = double) hr.1 hr.2
    rw [ofRat_big hF (abs_le_one hr'.1 hr'.2)]

theorem tval_range {F : Fmt} (hF : F = single ∨ F = double) {K v : ℕ} (hK : 1 ≤ K) (hv : v < 2 * K) :
    0 ≤ tval F K v ∧ tval F K v ≤ 1 := by
  have hk : (1 : ℚ) ≤ K := by exact_mod_cast hK
  have hv0 : (0 : ℚ) ≤ v := Nat.cast_nonneg _
  have hv1 : (v : ℚ) ≤ 2 * K - 1 := by
    have : (v : ℚ) + 1 ≤ 2 * K := by exact_mod_cast (by omega : v + 1 ≤ 2 * K)
    linarith
  unfold tval
  split
  · have hr := quot_range hv0 (show (0 : ℚ) < 2 * K by linarith) (by linarith)
    exact round01 hF hr.1 hr.2
  · have hr := quot_range hv0 (show (0 : ℚ) < 2 * K - 1 by linarith) hv1
    have hr' := round01 (Or.inr rfl : double = single ∨ double = double) hr.1 hr.2
    exact round01 hF hr'.1 hr'.2

theorem tval_low {F : Fmt} (hF : F = single ∨ F = double) {K v : ℕ} (hK : 1 ≤ K) (h : v ≤ K) : tval F K v ≤ 1 / 2 := by
  have hk : (1 : ℚ) ≤ K := by exact_mod_cast hK
  have hv : (v : ℚ) ≤ K := by exact_mod_cast h
  unfold tval
  rw [if_pos h]
  refine round_le (fmt_prec hF) ?_ (rep_half hF)
  rw [div_le_iff₀ (by linarith)]
  linarith

theorem tval_high {F : Fmt} (hF : F = single ∨ F = double) {K v : ℕ} (hK : 1 ≤ K) (h : K < v) : 1 / 2 ≤ tval F K v := by
  have hk : (1 : ℚ) ≤ K := by exact_mod_cast hK
  have hv : (K : ℚ) ≤ v := by exact_mod_cast (le_of_lt h)
  unfold tval
  rw [if_neg (by omega)]
  refine le_round (fmt_prec hF) (le_round double_prec ?_ (rep_half (Or.inr rfl))) (rep_half hF)
  rw [le_div_iff₀ (by linarith)]
  linarith

theorem tval_mono {F : Fmt} (hF : F = single ∨ F = double) {K v w : ℕ} (hK : 1 ≤ K) (h : v ≤ w) :
    tval F K v ≤ tval F K w := by
  have hk : (1 : ℚ) ≤ K := by exact_mod_cast hK
  have hv : (v : ℚ) ≤ w := by exact_mod_cast h
  by_cases h1 : w ≤ K
  · unfold tval
    rw [if_pos h1, if_pos (by omega)]
    exact round_mono (fmt_prec hF) (div_le_div_of_nonneg_right hv (by linarith))
  · by_cases h2 : v ≤ K
    · exact le_trans (tval_low hF hK h2) (tval_high hF hK (by omega))
    · unfold tval
      rw [if_neg h1, if_neg h2]
      exact round_mono (fmt_prec hF) (round_mono double_prec (div_le_div_of_nonneg_right hv (by linarith)))

theorem tval_zero {F : Fmt} {K : ℕ} : tval F K 0 = 0 := by
  unfold tval; rw [if_pos (by omega)]; simp [round_zero]

theorem tval_mid {F : Fmt} (hF : F = single ∨ F = double) {K : ℕ} (hK : 1 ≤ K) : tval F K K = 1 / 2 := by
  have hk : (1 : ℚ) ≤ K := by exact_mod_cast hK
  unfold tval
  rw [if_pos (le_refl _), show (K : ℚ) / (2 * K) = 1 / 2 by field_simp]
  exact round_rep (rep_half hF)

theorem tval_max {F : Fmt} (hF : F = single ∨ F = double) {K : ℕ} (hK : 2 ≤ K) : tval F K (2 * K - 1) = 1 := by
  have hk : (2 : ℚ) ≤ K := by exact_mod_cast hK
  unfold tval
  rw [if_neg (by omega)]
  have : ((2 * K - 1 : ℕ) : ℚ) / (2 * K - 1) = 1 := by
    rw [Nat.cast_sub (by omega)]
    push_cast
    exact div_self (by linarith)
  rw [this, round_rep (rep_one (Or.inr rfl)), round_rep (rep_one hF)]

theorem pow_eq (k : ℕ) : (2 : ℚ) ^ (-(k : ℤ)) = 1 / 2 ^ k := by rw [zpow_neg, zpow_natCast, one_div]

/-- Numbers between 0 and 1 have an error of at most `2^-54` or `2^-25`. -/
theorem round_error {F : Fmt} (hF : F = single ∨ F = double) {x : ℚ} (h0 : 0 < x) (h1 : x < 1) :
    |round F x - x| ≤ 1 / 2 ^ (F.prec + 1) := by
  have h := round_absolute (F := F) (k := -1) h0 (by simpa using h1) (by rcases hF with rfl | rfl <;> decide)
  refine le_trans h (le_of_eq ?_)
  rw [← pow_eq]
  congr 1
  push_cast
  omega

/-- Values in the upper half are found again if they are off by less than a quarter of the distance between two values. -/
theorem val_trip {K v : ℕ} (hK : K ≤ 2 ^ 31) {q : ℚ} (h1 : K < v) (h2 : v < 2 * K - 1)
    (hq : |q - v / (2 * K - 1)| ≤ 1 / 4 / (2 * K - 1)) : val K q = v := by
  have hk : (2 : ℚ) ≤ K := by exact_mod_cast (by omega : 2 ≤ K)
  have hM : (0 : ℚ) < 2 * K - 1 := by linarith
  have hKb : (K : ℚ) ≤ 2 ^ 31 := by exact_mod_cast hK
  have hv1 : (K : ℚ) + 1 ≤ v := by exact_mod_cast h1
  have hv2 : (v : ℚ) + 2 ≤ 2 * K := by exact_mod_cast (by omega : v + 2 ≤ 2 * K)
  rw [abs_le] at hq
  -- bounds for the multiple
  have hlo : (v : ℚ) - 1 / 4 ≤ q * (2 * K - 1) := by
    have := mul_le_mul_of_nonneg_right hq.1 (le_of_lt hM)
    rw [neg_mul, div_mul_cancel₀ _ (ne_of_gt hM), sub_mul, div_mul_cancel₀ _ (ne_of_gt hM)] at this
    linarith
  have hhi : q * (2 * K - 1) ≤ (v : ℚ) + 1 / 4 := by
    have := mul_le_mul_of_nonneg_right hq.2 (le_of_lt hM)
    rw [div_mul_cancel₀ _ (ne_of_gt hM), sub_mul, div_mul_cancel₀ _ (ne_of_gt hM)] at this
    linarith
  have hq1 : q < 1 := by
    by_contra hc
    have := mul_le_mul_of_nonneg_right (not_lt.1 hc) (le_of_lt hM)
    linarith
  have hq0 : 1 / 2 < q := by
    by_contra hc
    have := mul_le_mul_of_nonneg_right (not_lt.1 hc) (le_of_lt hM)
    linarith
  unfold val
  rw [if_neg (by linarith), if_neg (by linarith), if_neg (by linarith)]
  have herr := round_error (Or.inr rfl : double = single ∨ double = double) (x := q - 1 / 2) (by linarith) (by linarith)
  rw [show double.prec + 1 = 54 from rfl, abs_le] at herr
  generalize round double (q - 1 / 2) = s at herr
  have hslo : (v : ℚ) - K + 1 / 8 ≤ s * (2 * K - 1) := by
    have := mul_le_mul_of_nonneg_right (show q - 1 / 2 - 1 / 2 ^ 54 ≤ s by linarith) (le_of_lt hM)
    linarith
  have hshi : s * (2 * K - 1) ≤ (v : ℚ) - K + 7 / 8 := by
    have := mul_le_mul_of_nonneg_right (show s ≤ q - 1 / 2 + 1 / 2 ^ 54 by linarith) (le_of_lt hM)
    linarith
  have r1 : (((v : ℤ) - K : ℤ) : ℚ) ≤ round double (s * (2 * K - 1)) := by
    refine le_round double_prec (by push_cast; linarith) (rep_double_int ?_)
    rw [abs_of_nonneg (by omega)]; omega
  have r2 : round double (s * (2 * K - 1)) ≤ ((8 * ((v : ℤ) - K) + 7 : ℤ) : ℚ) / 2 ^ 3 := by
    refine round_le double_prec (by push_cast; linarith) (rep_div 3 (by decide) _ ?_)
    rw [abs_of_nonneg (by omega)]
    show _ < (2 : ℤ) ^ 53
    omega
  have : ⌊round double (s * (2 * K - 1))⌋ = (v : ℤ) - K := by
    rw [Int.floor_eq_iff]
    refine ⟨r1, ?_⟩
    push_cast at *
    linarith
  rw [this]; omega

theorem val_low_trip {K v : ℕ} (hK1 : 1 ≤ K) (hK : K ≤ 2 ^ 31) (h : v ≤ K) : val K ((v : ℚ) / (2 * K)) = v := by
  have hk : (1 : ℚ) ≤ K := by exact_mod_cast hK1
  have hv : (v : ℚ) ≤ K := by exact_mod_cast h
  have hv0 : (0 : ℚ) ≤ v := Nat.cast_nonneg _
  unfold val
  by_cases h0 : v = 0
  · subst h0; simp
  have hv1 : (1 : ℚ) ≤ v := by exact_mod_cast (by omega : 1 ≤ v)
  have hpos : 0 < (v : ℚ) / (2 * K) := div_pos (by linarith) (by linarith)
  have hhalf : (v : ℚ) / (2 * K) ≤ 1 / 2 := by rw [div_le_iff₀ (by linarith)]; linarith
  rw [if_neg (by linarith), if_neg (by linarith), if_pos hhalf, div_mul_cancel₀ _ (by linarith)]
  have : round double (v : ℚ) = (v : ℤ) := by
    have := round_rep (rep_double_int (m := v) (by rw [abs_of_nonneg (by omega)]; omega))
    exact_mod_cast this
  rw [this, Int.floor_intCast]

theorem trip {F : Fmt} (hF : F = double ∨ F = single) {K v : ℕ} (hK1 : 2 ≤ K) (hK : K ≤ 2 ^ 31)
    (hs : F = single → K ≤ 2 ^ 15) (hv : v < 2 * K) (hrep : Rep double ((v : ℚ) / (2 * K)))
    (hreps : F = single → v ≤ K → Rep single ((v : ℚ) / (2 * K))) : val K (tval F K v) = v := by
  have hk : (2 : ℚ) ≤ K := by exact_mod_cast hK1
  have hKb : (K : ℚ) ≤ 2 ^ 31 := by exact_mod_cast hK
  have hM : (0 : ℚ) < 2 * K - 1 := by linarith
  by_cases h1 : v ≤ K
  · have : tval F K v = (v : ℚ) / (2 * K) := by
      unfold tval
      rw [if_pos h1]
      rcases hF with rfl | rfl
      · exact round_rep hrep
      · exact round_rep (hreps rfl h1)
    rw [this, val_low_trip (by omega) hK h1]
  by_cases h2 : v = 2 * K - 1
  · rw [h2, tval_max (Or.symm hF) hK1, val, if_neg (by norm_num), if_pos (le_refl _)]
    omega
  have hv1 : (K : ℚ) + 1 ≤ v := by exact_mod_cast (by omega : K + 1 ≤ v)
  have hv2 : (v : ℚ) + 2 ≤ 2 * K := by exact_mod_cast (by omega : v + 2 ≤ 2 * K)
  refine val_trip hK (by omega) (by omega) ?_
  have hx0 : 0 < (v : ℚ) / (2 * K - 1) := div_pos (by linarith) hM
  have hx1 : (v : ℚ) / (2 * K - 1) < 1 := by rw [div_lt_one hM]; linarith
  have e1 := round_error (Or.inr rfl : double = single ∨ double = double) hx0 hx1
  rw [show double.prec + 1 = 54 from rfl] at e1
  unfold tval
  rw [if_neg h1]
  rcases hF with rfl | rfl
  · rw [round_idem _ double_prec]
    refine le_trans e1 ?_
    rw [le_div_iff₀ hM]
    linarith
  · have hKs : (K : ℚ) ≤ 2 ^ 15 := by exact_mod_cast hs rfl
    have hy := round01 (Or.inr rfl : double = single ∨ double = double) (le_of_lt hx0) (le_of_lt hx1)
    have hy0 : 0 < round double ((v : ℚ) / (2 * K - 1)) := by
      have : (1 : ℚ) / 2 ≤ round double ((v : ℚ) / (2 * K - 1)) := by
        refine le_round double_prec ?_ (rep_half (Or.inr rfl))
        rw [le_div_iff₀ hM]; linarith
      linarith
    rcases lt_or_eq_of_le hy.2 with hlt | heq
    · have e2 := round_error (Or.inl rfl : single = single ∨ single = double) hy0 hlt
      rw [show single.prec + 1 = 25 from rfl] at e2
      rw [abs_le] at e1 e2 ⊢
      have hb : (1 : ℚ) / 2 ^ 54 + 1 / 2 ^ 25 ≤ 1 / 4 / (2 * K - 1) := by
        rw [le_div_iff₀ hM]
        linarith
      constructor <;> linarith
    · rw [heq] at e1 ⊢
      rw [round_rep (rep_one (Or.inl rfl))]
      refine le_trans e1 ?_
      rw [le_div_iff₀ hM]
      linarith

end Midi.Fp
