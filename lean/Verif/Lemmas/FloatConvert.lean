import Verif.Lemmas.Float
import Verif.Lemmas.Bits

namespace Midi.Fp

open Flt

theorem double_prec : 0 < double.prec := by decide
theorem single_prec : 0 < single.prec := by decide

theorem rep_intCast {F : Fmt} (he : F.emin ≤ 0) (m : ℤ) (h : |m| < 2 ^ F.prec) : Rep F (m : ℚ) :=
  ⟨m, 0, h, he, by simp⟩

theorem rep_double_int {m : ℤ} (h : |m| < 2 ^ 53) : Rep double (m : ℚ) := rep_intCast (by decide) m h

/-- Integer multiples of `1/2^k`. -/
theorem rep_div {F : Fmt} (k : ℕ) (he : F.emin ≤ -(k : ℤ)) (m : ℤ) (h : |m| < 2 ^ F.prec) : Rep F ((m : ℚ) / 2 ^ k) :=
  ⟨m, -k, h, he, by rw [zpow_neg, zpow_natCast]; rfl⟩

/-- No overflow below a representable number. -/
theorem ofRat_fin {F : Fmt} (hp : 0 < F.prec) {x : ℚ} {B : ℚ} (hB : Rep F B) (h : |x| ≤ B) (hlt : B < 2 ^ F.emax) :
    ofRat F x = .fin (round F x) := by
  rw [abs_le] at h
  have h1 := round_le hp h.2 hB
  have h2 := le_round hp h.1 hB.neg
  unfold ofRat
  rw [if_neg (by linarith), if_neg (by linarith)]

theorem ofRat_big {F : Fmt} (hF : F = single ∨ F = double) {x : ℚ} (h : |x| ≤ 2 ^ 64) : ofRat F x = .fin (round F x) := by
  rcases hF with rfl | rfl
  · exact ofRat_fin single_prec (B := 2 ^ 64) ⟨1, 64, by decide, by decide, by norm_num⟩ h (by
      show (2 : ℚ) ^ 64 < 2 ^ (128 : ℤ); norm_num)
  · have h' : |x| ≤ (2 : ℚ) ^ (64 : ℤ) := by rw [show (64 : ℤ) = ((64 : ℕ) : ℤ) from rfl, zpow_natCast]; exact h
    exact ofRat_fin double_prec (B := 2 ^ (64 : ℤ)) ⟨1, 64, by decide, by decide, by simp⟩ h' (two_lt.2 (by decide))

theorem ofRat_double {x : ℚ} (h : |x| ≤ 2 ^ 64) : ofRat double x = .fin (round double x) := ofRat_big (Or.inr rfl) h

theorem le_fin (x y : ℚ) : (fin x).le (fin y) = decide (x ≤ y) := rfl

theorem toUnsigned_fin {n : Nat} {q : ℚ} (h0 : 0 ≤ q) (h1 : ⌊q⌋ < 2 ^ n) :
    (fin q).toUnsigned n = .ok (BitVec.ofInt n ⌊q⌋) := by
  show (if _ then _ else _) = _
  rw [if_pos h0, if_pos ⟨Int.floor_nonneg.2 h0, h1⟩]

/-! Conversion from the interval from 0 to 1. -/

/-- The result for a rational argument: the middle of the range is `K`. -/
def val (K : ℕ) (q : ℚ) : ℤ :=
  if q ≤ 0 then 0
  else if 1 ≤ q then 2 * K - 1
  else if q ≤ 1 / 2 then ⌊round double (q * (2 * K))⌋
  else K + ⌊round double (round double (q - 1 / 2) * (2 * K - 1))⌋

theorem val_range_low {K : ℕ} (hK : K ≤ 2 ^ 31) {q : ℚ} (h0 : 0 < q) (h1 : q ≤ 1 / 2) :
    0 ≤ round double (q * (2 * K)) ∧ ⌊round double (q * (2 * K))⌋ ≤ K := by
  have hk : (0 : ℚ) ≤ K := Nat.cast_nonneg K
  constructor
  · exact round_nonneg (by positivity)
  · have : round double (q * (2 * K)) ≤ (K : ℤ) := by
      refine round_le double_prec ?_ (rep_double_int (by rw [abs_of_nonneg (by omega)]; omega))
      push_cast
      nlinarith
    exact Int.floor_le_iff.2 (by linarith)

theorem half_range {q : ℚ} (h0 : 1 / 2 < q) (h1 : q < 1) :
    0 ≤ round double (q - 1 / 2) ∧ round double (q - 1 / 2) ≤ 1 / 2 := by
  constructor
  · exact round_nonneg (by linarith)
  · exact round_le double_prec (by linarith) ⟨1, -1, by decide, by decide, by norm_num⟩

theorem val_range_high {K : ℕ} (h1K : 1 ≤ K) (hK : K ≤ 2 ^ 31) {q : ℚ} (h0 : 1 / 2 < q) (h1 : q < 1) :
    0 ≤ round double (round double (q - 1 / 2) * (2 * K - 1)) ∧
    ⌊round double (round double (q - 1 / 2) * (2 * K - 1))⌋ ≤ (K : ℤ) - 1 ∧
    round double (q - 1 / 2) * (2 * K - 1) ≤ K := by
  obtain ⟨a, b⟩ := half_range h0 h1
  have hk : (1 : ℚ) ≤ K := by exact_mod_cast h1K
  have hm : round double (q - 1 / 2) * (2 * K - 1) ≤ 1 / 2 * (2 * K - 1) :=
    mul_le_mul_of_nonneg_right b (by linarith)
  refine ⟨round_nonneg (mul_nonneg a (by linarith)), ?_, by linarith⟩
  have : round double (round double (q - 1 / 2) * (2 * K - 1)) ≤ ((2 * K - 1 : ℤ) : ℚ) / 2 ^ 1 := by
    refine round_le double_prec ?_ (rep_div 1 (by decide) _ ?_)
    · push_cast; linarith
    · rw [abs_of_nonneg (by omega)]
      show 2 * (K : ℤ) - 1 < 2 ^ 53
      omega
  push_cast at this
  refine Int.floor_le_iff.2 ?_
  push_cast
  linarith

theorem val_range {K : ℕ} (h1K : 1 ≤ K) (hK : K ≤ 2 ^ 31) (q : ℚ) : 0 ≤ val K q ∧ val K q ≤ 2 * K - 1 := by
  unfold val
  split
  · omega
  · split
    · omega
    · split
      · obtain ⟨a, b⟩ := val_range_low hK (q := q) (by linarith) (by assumption)
        have := Int.floor_nonneg.2 a
        omega
      · obtain ⟨a, b, -⟩ := val_range_high h1K hK (q := q) (by linarith) (by linarith)
        have := Int.floor_nonneg.2 a
        omega

theorem val_mono {K : ℕ} (h1K : 1 ≤ K) (hK : K ≤ 2 ^ 31) {q r : ℚ} (h : q ≤ r) : val K q ≤ val K r := by
  have hk : (1 : ℚ) ≤ K := by exact_mod_cast h1K
  by_cases hq0 : q ≤ 0
  · rw [val, if_pos hq0]; exact (val_range h1K hK r).1
  by_cases hr1 : 1 ≤ r
  · have : val K r = 2 * K - 1 := by rw [val, if_neg (by linarith), if_pos hr1]
    rw [this]; exact (val_range h1K hK q).2
  have eq' : val K q = if q ≤ 1 / 2 then ⌊round double (q * (2 * K))⌋
      else K + ⌊round double (round double (q - 1 / 2) * (2 * K - 1))⌋ := by
    rw [val, if_neg hq0, if_neg (by linarith)]
  have er' : val K r = if r ≤ 1 / 2 then ⌊round double (r * (2 * K))⌋
      else K + ⌊round double (round double (r - 1 / 2) * (2 * K - 1))⌋ := by
    rw [val, if_neg (by linarith), if_neg hr1]
  rw [eq', er']
  by_cases hq : q ≤ 1 / 2
  · rw [if_pos hq]
    by_cases hr : r ≤ 1 / 2
    · rw [if_pos hr]
      exact Int.floor_le_floor (round_mono double_prec (mul_le_mul_of_nonneg_right h (by linarith)))
    · rw [if_neg hr]
      have h1 := (val_range_low hK (q := q) (by linarith) hq).2
      have h2 := Int.floor_nonneg.2 (val_range_high h1K hK (q := r) (by linarith) (by linarith)).1
      omega
  · rw [if_neg hq, if_neg (by linarith)]
    have : round double (q - 1 / 2) ≤ round double (r - 1 / 2) := round_mono double_prec (by linarith)
    have := Int.floor_le_floor (round_mono double_prec (mul_le_mul_of_nonneg_right this
      (show (0 : ℚ) ≤ 2 * K - 1 by linarith)))
    omega

theorem mid_toNat {n : ℕ} (hn : 1 ≤ n) : ((BitVec.allOnes n >>> 1) + 1).toNat = 2 ^ (n - 1) := by
  have h : 2 ^ n = 2 * 2 ^ (n - 1) := by rw [← Nat.pow_succ']; congr 1; omega
  have hp : 0 < 2 ^ (n - 1) := Nat.two_pow_pos _
  rw [BitVec.toNat_add, BitVec.toNat_ushiftRight, BitVec.toNat_allOnes, Nat.shiftRight_eq_div_pow, h]
  have h1 : (1 : BitVec n).toNat = 1 := by
    show (BitVec.ofNat n 1).toNat = 1
    rw [BitVec.toNat_ofNat, h, Nat.mod_eq_of_lt (by omega)]
  rw [h1, Nat.mod_eq_of_lt (by omega)]
  omega

theorem fromFloat01_fin {n : ℕ} (hn : 1 ≤ n) (hn' : n ≤ 32) (q : ℚ) :
    fromFloat01 n (fin q) = .ok (BitVec.ofInt n (val (2 ^ (n - 1)) q)) := by
  have h : 2 ^ n = 2 * 2 ^ (n - 1) := by rw [← Nat.pow_succ']; congr 1; omega
  have hp : 1 ≤ 2 ^ (n - 1) := Nat.two_pow_pos _
  have hK : 2 ^ (n - 1) ≤ 2 ^ 31 := Nat.pow_le_pow_right (by omega) (by omega)
  have hk : (1 : ℚ) ≤ (2 ^ (n - 1) : ℕ) := by exact_mod_cast hp
  have hk' : ((2 ^ (n - 1) : ℕ) : ℚ) ≤ 2 ^ 31 := by exact_mod_cast hK
  have hmax : ((2 ^ n - 1 : ℕ) : ℚ) = 2 * (2 ^ (n - 1) : ℕ) - 1 := by
    rw [h, Nat.cast_sub (by omega)]; push_cast; ring
  have hi : (2 : ℤ) ^ n = 2 * (2 ^ (n - 1) : ℕ) := by exact_mod_cast h
  have hmid : (BitVec.allOnes n >>> 1) + 1 = BitVec.ofInt n ((2 ^ (n - 1) : ℕ) : ℤ) := by
    apply BitVec.eq_of_toNat_eq
    rw [mid_toNat hn, BitVec.ofInt_natCast, BitVec.toNat_ofNat, Nat.mod_eq_of_lt (by omega)]
  unfold fromFloat01 val
  simp only [le_fin, decide_eq_true_eq, hmax]
  generalize hKK : 2 ^ (n - 1) = K at *
  by_cases h0 : q ≤ 0
  · rw [if_pos h0, if_pos h0]
    show Except.ok _ = Except.ok _
    congr 1
  rw [if_neg h0, if_neg h0]
  by_cases h1 : 1 ≤ q
  · rw [if_pos h1, if_pos h1]
    show Except.ok _ = Except.ok _
    congr 1
    apply BitVec.eq_of_toNat_eq
    rw [BitVec.toNat_allOnes, BitVec.toNat_ofInt, h, Int.emod_eq_of_lt (by omega) (by push_cast; omega)]
    omega
  rw [if_neg h1, if_neg h1]
  by_cases h2 : q ≤ 1 / 2
  · rw [if_pos h2, if_pos h2]
    obtain ⟨a, b⟩ := val_range_low hK (q := q) (by linarith) h2
    have e : mul double (fin q) (fin (2 * (K : ℚ) - 1 + 1)) = fin (round double (q * (2 * K))) := by
      show ofRat double _ = _
      rw [sub_add_cancel, ofRat_double]
      rw [abs_of_nonneg (mul_nonneg (by linarith) (by linarith))]
      have := mul_le_mul_of_nonneg_right h2 (show (0 : ℚ) ≤ 2 * K by linarith)
      linarith
    rw [e, toUnsigned_fin a (by rw [hi]; omega)]
  · rw [if_neg h2, if_neg h2]
    obtain ⟨a, b, c⟩ := val_range_high hp hK (q := q) (by linarith) (by linarith)
    obtain ⟨d, d'⟩ := half_range (q := q) (by linarith) (by linarith)
    have e1 : sub double (fin q) (fin (1 / 2)) = fin (round double (q - 1 / 2)) := by
      show ofRat double (q + -(1 / 2)) = _
      rw [← sub_eq_add_neg, ofRat_double]
      rw [abs_of_nonneg (by linarith)]
      norm_num
      linarith
    have e : mul double (fin (round double (q - 1 / 2))) (fin (2 * (K : ℚ) - 1)) =
        fin (round double (round double (q - 1 / 2) * (2 * K - 1))) := by
      show ofRat double _ = _
      rw [ofRat_double]
      rw [abs_of_nonneg (mul_nonneg d (by linarith))]
      linarith
    rw [e1, e, toUnsigned_fin a (by rw [hi]; omega), hmid]
    show Except.ok _ = Except.ok _
    congr 1
    rw [← BitVec.ofInt_add]

/-- The result for any argument other than NaN. -/
def fval (K : ℕ) : Flt → ℤ
  | .nan => 0
  | .inf true => 0
  | .inf false => 2 * K - 1
  | .fin q => val K q

theorem fval_range {K : ℕ} (h1K : 1 ≤ K) (hK : K ≤ 2 ^ 31) (f : Flt) : 0 ≤ fval K f ∧ fval K f ≤ 2 * K - 1 := by
  match f with
  | .nan => show 0 ≤ (0 : ℤ) ∧ (0 : ℤ) ≤ _; omega
  | .inf true => show 0 ≤ (0 : ℤ) ∧ (0 : ℤ) ≤ _; omega
  | .inf false => show 0 ≤ 2 * (K : ℤ) - 1 ∧ 2 * (K : ℤ) - 1 ≤ _; omega
  | .fin q => exact val_range h1K hK q

theorem fval_mono {K : ℕ} (h1K : 1 ≤ K) (hK : K ≤ 2 ^ 31) {f g : Flt} (h : f.le g = true) : fval K f ≤ fval K g := by
  match f, g with
  | .nan, _ => cases h
  | .fin _, .nan => cases h
  | .inf true, .nan => cases h
  | .inf false, .nan => cases h
  | .inf true, .inf s => exact (fval_range h1K hK _).1
  | .inf true, .fin s => exact (fval_range h1K hK _).1
  | .inf false, .inf false => exact le_refl _
  | .inf false, .inf true => cases h
  | .inf false, .fin _ => cases h
  | .fin q, .inf false => exact (fval_range h1K hK _).2
  | .fin q, .inf true => cases h
  | .fin q, .fin r => exact val_mono h1K hK (of_decide_eq_true h)

theorem fromFloat01_eq {n : ℕ} (hn : 1 ≤ n) (hn' : n ≤ 32) {f : Flt} (hf : f ≠ .nan) :
    fromFloat01 n f = .ok (BitVec.ofInt n (fval (2 ^ (n - 1)) f)) := by
  have h : 2 ^ n = 2 * 2 ^ (n - 1) := by rw [← Nat.pow_succ']; congr 1; omega
  have hp : 1 ≤ 2 ^ (n - 1) := Nat.two_pow_pos _
  match f with
  | .nan => exact absurd rfl hf
  | .fin q => exact fromFloat01_fin hn hn' q
  | .inf true => show Except.ok _ = Except.ok _; congr 1
  | .inf false =>
    show Except.ok _ = Except.ok _
    congr 1
    apply BitVec.eq_of_toNat_eq
    show _ = (BitVec.ofInt n (2 * ((2 ^ (n - 1) : ℕ) : ℤ) - 1)).toNat
    rw [BitVec.toNat_allOnes, BitVec.toNat_ofInt, h, Int.emod_eq_of_lt (by omega) (by omega)]
    omega

theorem fromFloat01_toNat {n : ℕ} (hn : 1 ≤ n) (hn' : n ≤ 32) {f : Flt} (hf : f ≠ .nan) :
    ∃ v, fromFloat01 n f = .ok v ∧ (v.toNat : ℤ) = fval (2 ^ (n - 1)) f := by
  have h : 2 ^ n = 2 * 2 ^ (n - 1) := by rw [← Nat.pow_succ']; congr 1; omega
  have hK : 2 ^ (n - 1) ≤ 2 ^ 31 := Nat.pow_le_pow_right (by omega) (by omega)
  obtain ⟨a, b⟩ := fval_range (Nat.two_pow_pos (n - 1)) hK f
  refine ⟨_, fromFloat01_eq hn hn' hf, ?_⟩
  rw [BitVec.toNat_ofInt, h, Int.emod_eq_of_lt a (by omega), Int.toNat_of_nonneg a]

end Midi.Fp
