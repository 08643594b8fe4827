import Verif.Lemmas.FloatTrip

namespace Midi.Fp

open Flt

/-! Order of results. -/

theorem ofRat_mono {F : Fmt} (hp : 0 < F.prec) {x y : ℚ} (h : x ≤ y) : (ofRat F x).le (ofRat F y) = true := by
  have hm := round_mono hp h
  have hpos := two_pos F.emax
  unfold ofRat
  split
  · rw [if_pos (by linarith)]; rfl
  · split
    · split
      · rfl
      · split <;> rfl
    · split
      · rfl
      · rw [if_neg (by linarith)]
        exact decide_eq_true hm

theorem ofRat_ne_nan (F : Fmt) (x : ℚ) : ofRat F x ≠ .nan := by
  unfold ofRat
  split
  · intro h; cases h
  · split <;> intro h <;> cases h

/-- `(f + 1) / 2`. -/
def bend (F : Fmt) (f : Flt) : Flt := div F (add F f (fin 1)) (fin 2)

theorem bend_inf (F : Fmt) (s : Bool) : bend F (.inf s) = .inf s := by cases s <;> rfl

theorem half_mono {F : Fmt} (hp : 0 < F.prec) {x y : Flt} (h : x.le y = true) : (div F x (fin 2)).le (div F y (fin 2)) = true := by
  match x, y with
  | .nan, _ => cases h
  | .fin _, .nan => cases h
  | .inf true, .nan => cases h
  | .inf false, .nan => cases h
  | .inf true, .inf s => cases s <;> rfl
  | .inf true, .fin s =>
    have hn := ofRat_ne_nan F (s / 2)
    rw [div_fin _ _ (by norm_num)]
    show (Flt.inf true).le _ = true
    generalize ofRat F (s / 2) = z at hn
    cases z <;> first | exact absurd rfl hn | rfl
  | .inf false, .inf false => rfl
  | .inf false, .inf true => cases h
  | .inf false, .fin _ => cases h
  | .fin q, .inf true => cases h
  | .fin q, .inf false =>
    have hn := ofRat_ne_nan F (q / 2)
    rw [div_fin _ _ (by norm_num)]
    show Flt.le _ (Flt.inf false) = true
    generalize ofRat F (q / 2) = z at hn
    cases z with
    | nan => exact absurd rfl hn
    | inf s => cases s <;> rfl
    | fin q => rfl
  | .fin q, .fin r =>
    rw [div_fin _ _ (by norm_num), div_fin _ _ (by norm_num)]
    have : q ≤ r := of_decide_eq_true h
    exact ofRat_mono hp (by linarith)

theorem add_mono {F : Fmt} (hp : 0 < F.prec) {x y : Flt} (h : x.le y = true) : (add F x (fin 1)).le (add F y (fin 1)) = true := by
  match x, y with
  | .nan, _ => cases h
  | .fin _, .nan => cases h
  | .inf true, .nan => cases h
  | .inf false, .nan => cases h
  | .inf true, .inf s => cases s <;> rfl
  | .inf true, .fin s =>
    have hn := ofRat_ne_nan F (s + 1)
    show (Flt.inf true).le (ofRat F (s + 1)) = true
    generalize ofRat F (s + 1) = z at hn
    cases z <;> first | exact absurd rfl hn | rfl
  | .inf false, .inf false => rfl
  | .inf false, .inf true => cases h
  | .inf false, .fin _ => cases h
  | .fin q, .inf true => cases h
  | .fin q, .inf false =>
    have hn := ofRat_ne_nan F (q + 1)
    show Flt.le (ofRat F (q + 1)) (Flt.inf false) = true
    generalize ofRat F (q + 1) = z at hn
    cases z with
    | nan => exact absurd rfl hn
    | inf s => cases s <;> rfl
    | fin q => rfl
  | .fin q, .fin r =>
    show (ofRat F (q + 1)).le (ofRat F (r + 1)) = true
    have : q ≤ r := of_decide_eq_true h
    exact ofRat_mono hp (by linarith)

theorem bend_mono {F : Fmt} (hp : 0 < F.prec) {x y : Flt} (h : x.le y = true) : (bend F x).le (bend F y) = true :=
  half_mono hp (add_mono hp h)

theorem le_refl' {f : Flt} (h : f ≠ .nan) : f.le f = true := by
  cases f with
  | nan => exact absurd rfl h
  | inf s => cases s <;> rfl
  | fin q => exact decide_eq_true (le_refl q)

theorem not_nan_of_le {f g : Flt} (h : f.le g = true) : f ≠ .nan ∧ g ≠ .nan := by
  constructor
  · rintro rfl; cases h
  · rintro rfl; cases f <;> first | cases h | (rename_i s; cases s <;> cases h)

theorem bend_ne_nan {F : Fmt} (hp : 0 < F.prec) {f : Flt} (h : f ≠ .nan) : bend F f ≠ .nan :=
  (not_nan_of_le (bend_mono hp (le_refl' h))).1

/-! Conversion of pitch bends to `double`. -/

/-- The value of `as_double`. -/
def bendValue (v : ℕ) : ℚ := if 2 ^ 31 ≤ v then round double (((v : ℚ) - 2 ^ 31) / (2 ^ 31 - 1)) else ((v : ℚ) - 2 ^ 31) / 2 ^ 31

theorem pitchBendAsDouble_eq (v : Word) : pitchBendAsDouble v = fin (bendValue v.toNat) := by
  have hlt := v.isLt
  unfold pitchBendAsDouble bendValue
  by_cases h : v ≥ 0x80000000
  · have hn : 2 ^ 31 ≤ v.toNat := BitVec.le_def.1 h
    have hq : (2 : ℚ) ^ 31 ≤ v.toNat := by exact_mod_cast hn
    have hq' : (v.toNat : ℚ) ≤ 2 ^ 32 - 1 := by
      have : (v.toNat : ℚ) + 1 ≤ 2 ^ 32 := by exact_mod_cast hlt
      linarith
    have hs : (v - 0x80000000).toNat = v.toNat - 2 ^ 31 := by
      rw [BitVec.toNat_sub]
      simp only [show (0x80000000 : Word).toNat = 2147483648 from rfl]
      omega
    rw [if_pos h, if_pos hn]
    unfold ofUnsigned
    rw [hs, div_fin _ _ (by norm_num), Nat.cast_sub hn, Nat.cast_pow, Nat.cast_ofNat]
    have hr := quot_range (v := (v.toNat : ℚ) - 2 ^ 31) (M := 2 ^ 31 - 1) (by linarith) (by norm_num) (by linarith)
    have e : (2147483647 : ℚ) = 2 ^ 31 - 1 := by norm_num
    rw [e, ofRat_double (abs_le_one hr.1 hr.2)]
  · have hn : ¬ 2 ^ 31 ≤ v.toNat := fun h' => h (BitVec.le_def.2 h')
    have hq : (v.toNat : ℚ) ≤ 2 ^ 31 := by exact_mod_cast (by omega : v.toNat ≤ 2 ^ 31)
    have hs : (0x80000000 - v).toNat = 2 ^ 31 - v.toNat := by
      rw [BitVec.toNat_sub]
      simp only [show (0x80000000 : Word).toNat = 2147483648 from rfl]
      omega
    rw [if_neg h, if_neg hn]
    unfold ofUnsigned
    rw [hs, div_fin _ _ (by norm_num), Nat.cast_sub (by omega), Nat.cast_pow, Nat.cast_ofNat]
    have e : ((2 : ℚ) ^ 31 - v.toNat) / (-2147483648) = ((v.toNat : ℚ) - 2 ^ 31) / 2 ^ 31 := by
      rw [show (-2147483648 : ℚ) = -(2 ^ 31) by norm_num, div_neg, ← neg_div]
      ring
    rw [e]
    have hr := quot_range (v := (2 : ℚ) ^ 31 - v.toNat) (M := 2 ^ 31) (by linarith) (by norm_num)
      (by have : (0 : ℚ) ≤ v.toNat := Nat.cast_nonneg _; linarith)
    have hrep : Rep double (((v.toNat : ℚ) - 2 ^ 31) / 2 ^ 31) := by
      have := rep_div (F := double) 31 (by decide) ((v.toNat : ℤ) - 2 ^ 31) (by
        rw [abs_of_nonpos (by omega)]
        show _ < (2 : ℤ) ^ 53
        omega)
      push_cast at this
      exact this
    rw [ofRat_double, round_rep hrep]
    rw [← abs_neg, ← neg_div, neg_sub]
    exact abs_le_one hr.1 hr.2

theorem bendValue_range {v : ℕ} (hv : v < 2 ^ 32) : -1 ≤ bendValue v ∧ bendValue v ≤ 1 ∧
    (2 ^ 31 ≤ v → 0 ≤ bendValue v) ∧ (v < 2 ^ 31 → bendValue v < 0) := by
  have hv0 : (0 : ℚ) ≤ v := Nat.cast_nonneg _
  have hv1 : (v : ℚ) + 1 ≤ 2 ^ 32 := by exact_mod_cast hv
  unfold bendValue
  split
  · rename_i h
    have hq : (2 : ℚ) ^ 31 ≤ v := by exact_mod_cast h
    have hr := quot_range (v := (v : ℚ) - 2 ^ 31) (M := 2 ^ 31 - 1) (by linarith) (by norm_num) (by linarith)
    have hr' := round01 (Or.inr rfl : double = single ∨ double = double) hr.1 hr.2
    exact ⟨by linarith, hr'.2, fun _ => hr'.1, fun h' => absurd h (by omega)⟩
  · rename_i h
    have hq : (v : ℚ) + 1 ≤ 2 ^ 31 := by exact_mod_cast (by omega : v + 1 ≤ 2 ^ 31)
    have h1 : ((v : ℚ) - 2 ^ 31) / 2 ^ 31 < 0 := div_neg_of_neg_of_pos (by linarith) (by norm_num)
    refine ⟨?_, by linarith, fun h' => absurd h' h, fun _ => h1⟩
    rw [le_div_iff₀ (by norm_num)]
    linarith

theorem bendValue_mono {v w : ℕ} (hw : w < 2 ^ 32) (h : v ≤ w) : bendValue v ≤ bendValue w := by
  have hq : (v : ℚ) ≤ w := by exact_mod_cast h
  by_cases h1 : 2 ^ 31 ≤ v
  · unfold bendValue
    rw [if_pos h1, if_pos (by omega)]
    exact round_mono double_prec (div_le_div_of_nonneg_right (by linarith) (by norm_num))
  · by_cases h2 : 2 ^ 31 ≤ w
    · have a := (bendValue_range (v := v) (by omega)).2.2.2 (by omega)
      have b := (bendValue_range hw).2.2.1 h2
      linarith
    · unfold bendValue
      rw [if_neg h1, if_neg h2]
      exact div_le_div_of_nonneg_right (by linarith) (by norm_num)

/-- Sum and quotient are exact for numbers below 0. -/
theorem bend_low {v : ℕ} (h : v ≤ 2 ^ 31) : bend double (fin (((v : ℚ) - 2 ^ 31) / 2 ^ 31)) = fin ((v : ℚ) / (2 * (2 ^ 31 : ℕ))) := by
  have hq : (v : ℚ) ≤ 2 ^ 31 := by exact_mod_cast h
  have hv0 : (0 : ℚ) ≤ v := Nat.cast_nonneg _
  have habs : |(v : ℤ)| < 2 ^ double.prec := by
    rw [abs_of_nonneg (by omega)]
    show (v : ℤ) < 2 ^ 53
    omega
  have e1 : add double (fin (((v : ℚ) - 2 ^ 31) / 2 ^ 31)) (fin 1) = fin ((v : ℚ) / 2 ^ 31) := by
    show ofRat double _ = _
    have e : ((v : ℚ) - 2 ^ 31) / 2 ^ 31 + 1 = (v : ℚ) / 2 ^ 31 := by ring
    have hr := quot_range hv0 (show (0 : ℚ) < 2 ^ 31 by norm_num) hq
    have hrep := rep_div (F := double) 31 (by decide) v habs
    rw [Int.cast_natCast] at hrep
    rw [e, ofRat_double (abs_le_one hr.1 hr.2), round_rep hrep]
  unfold bend
  rw [e1, div_fin _ _ (by norm_num)]
  have e : (v : ℚ) / 2 ^ 31 / 2 = (v : ℚ) / 2 ^ 32 := by ring
  have hr := quot_range hv0 (show (0 : ℚ) < 2 ^ 32 by norm_num) (by linarith)
  have hrep := rep_div (F := double) 32 (by decide) v habs
  rw [Int.cast_natCast] at hrep
  rw [e, ofRat_double (abs_le_one hr.1 hr.2), round_rep hrep]
  congr 1
  push_cast
  norm_num

theorem log_one : ulpExp double 1 = -52 := by decide +kernel

/-- Numbers above 0: the sum is a multiple of `2^-52`, everything else is exact. -/
theorem val_bend {q : ℚ} (h0 : 0 < q) (h1 : q ≤ 1 - 1 / 2 ^ 32) :
    ∃ t : ℤ, |(t : ℚ) - q * 2 ^ 52| ≤ 1 / 2 ∧ bend double (fin q) = fin (1 / 2 + t / 2 ^ 53) ∧
      (0 < t → val (2 ^ 31) (1 / 2 + t / 2 ^ 53) = 2 ^ 31 + ⌊round double (t / 2 ^ 53 * (2 ^ 32 - 1))⌋) := by
  have e1 : add double (fin q) (fin 1) = fin (round double (q + 1)) := by
    show ofRat double _ = _
    rw [ofRat_double]
    rw [abs_of_nonneg (by linarith)]
    norm_num at *
    linarith
  have herr := round_absolute (F := double) (x := q + 1) (k := 0) (by linarith) (by norm_num; norm_num at h1; linarith) (by decide)
  have hge : 1 ≤ round double (q + 1) := le_round double_prec (by linarith) (rep_one (Or.inr rfl))
  obtain ⟨n, hn⟩ := (rep_round double_prec (q + 1)).multiple (x := 1) (by
    rw [abs_of_nonneg (by linarith)]
    exact le_trans (log_le (by norm_num)) hge)
  rw [log_one, show (-52 : ℤ) = -((52 : ℕ) : ℤ) from rfl, pow_eq] at hn
  rw [show (0 : ℤ) - (double.prec : ℤ) = -((53 : ℕ) : ℤ) from rfl, pow_eq, abs_le] at herr
  have ht : |((n - 2 ^ 52 : ℤ) : ℚ) - q * 2 ^ 52| ≤ 1 / 2 := by
    rw [hn] at herr
    push_cast
    rw [abs_le]
    norm_num at *
    constructor <;> linarith
  rw [abs_le] at ht
  have hnlt : n < 2 ^ 53 := by
    have : (n : ℚ) < 2 ^ 53 := by
      push_cast at ht
      norm_num at *
      linarith
    exact_mod_cast this
  have hn0 : 2 ^ 52 ≤ n := by
    have : (2 : ℚ) ^ 52 ≤ n := by
      rw [hn] at hge
      norm_num at *
      linarith
    exact_mod_cast this
  refine ⟨n - 2 ^ 52, abs_le.2 ht, ?_, ?_⟩
  · unfold bend
    rw [e1, div_fin _ _ (by norm_num), hn]
    have e : (n : ℚ) * (1 / 2 ^ 52) / 2 = (n : ℚ) / 2 ^ 53 := by norm_num; ring
    have hrep := rep_div (F := double) 53 (by decide) n (by rw [abs_of_nonneg (by omega)]; exact hnlt)
    have hnq : (n : ℚ) ≤ 2 ^ 53 := by exact_mod_cast le_of_lt hnlt
    have hnq0 : (0 : ℚ) ≤ n := by exact_mod_cast (by omega : 0 ≤ n)
    have hr := quot_range hnq0 (show (0 : ℚ) < 2 ^ 53 by norm_num) hnq
    rw [e, ofRat_double (abs_le_one hr.1 hr.2), round_rep hrep]
    congr 1
    push_cast
    ring
  · intro htpos
    have htp : (1 : ℚ) ≤ ((n - 2 ^ 52 : ℤ) : ℚ) := by exact_mod_cast htpos
    have htl : ((n - 2 ^ 52 : ℤ) : ℚ) + 1 ≤ 2 ^ 52 := by exact_mod_cast (by omega : (n - 2 ^ 52) + 1 ≤ (2 : ℤ) ^ 52)
    generalize hT : n - 2 ^ 52 = T at *
    have hpos : 0 < (T : ℚ) / 2 ^ 53 := div_pos (by linarith) (by norm_num)
    have hlt : (T : ℚ) / 2 ^ 53 < 1 / 2 := by
      rw [div_lt_iff₀ (by norm_num)]
      norm_num at *
      linarith
    unfold val
    rw [if_neg (by linarith), if_neg (by linarith), if_neg (by linarith), add_sub_cancel_left]
    have hrep := rep_div (F := double) 53 (by decide) T (by
      rw [abs_of_nonneg (by omega)]
      show T < 2 ^ 53
      omega)
    rw [round_rep hrep]
    push_cast
    norm_num

/-- More than 512 above the centre, the value is found again. -/
theorem val_bend_high {k : ℕ} (h1 : 512 < k) (h2 : k < 2 ^ 31 - 1) :
    ∃ x, bend double (fin (round double ((k : ℚ) / (2 ^ 31 - 1)))) = fin x ∧ val (2 ^ 31) x = 2 ^ 31 + k := by
  have hk1 : (513 : ℚ) ≤ k := by exact_mod_cast h1
  have hk2 : (k : ℚ) + 2 ≤ 2 ^ 31 := by exact_mod_cast (by omega : k + 2 ≤ 2 ^ 31)
  have hM : (0 : ℚ) < 2 ^ 31 - 1 := by norm_num
  have hx0 : (0 : ℚ) < k / (2 ^ 31 - 1) := div_pos (by linarith) hM
  have hrel := round_relative (F := double) (x := (k : ℚ) / (2 ^ 31 - 1)) (by
    have h : (2 : ℚ) ^ (-31 : ℤ) ≤ k / (2 ^ 31 - 1) := by
      rw [show (-31 : ℤ) = -((31 : ℕ) : ℤ) from rfl, pow_eq, le_div_iff₀ hM]
      linarith
    exact le_trans (two_le (show double.emin + (double.prec : ℤ) - 1 ≤ -31 by decide)) h)
  rw [show double.prec = 53 from rfl, abs_le] at hrel
  generalize hq : round double ((k : ℚ) / (2 ^ 31 - 1)) = q at *
  -- multiplied with the denominator
  have hx : (k : ℚ) / (2 ^ 31 - 1) * (2 ^ 31 - 1) = k := div_mul_cancel₀ _ (ne_of_gt hM)
  generalize (k : ℚ) / (2 ^ 31 - 1) = x at *
  have hqpos : 0 < q := by linarith
  have hqlt : q ≤ 1 - 1 / 2 ^ 32 := by linarith
  obtain ⟨t, ht, hb, hv⟩ := val_bend hqpos hqlt
  rw [abs_le] at ht
  -- the multiple of the last digit
  have htgt : (k : ℤ) * 2 ^ 21 + 1 ≤ t := by
    have : ((k : ℤ) * 2 ^ 21 : ℤ) < (t : ℚ) := by
      push_cast
      linarith
    have : (k : ℤ) * 2 ^ 21 < t := by exact_mod_cast this
    omega
  have htgt' : (k : ℚ) * 2 ^ 21 + 1 ≤ t := by exact_mod_cast htgt
  refine ⟨_, hb, ?_⟩
  rw [hv (by omega)]
  have hlo : (k : ℚ) ≤ t / 2 ^ 53 * (2 ^ 32 - 1) := by
    by_cases hc : k ≤ 2047
    · have hc' : (k : ℚ) ≤ 2047 := by exact_mod_cast hc
      linarith
    · have hc' : (2048 : ℚ) ≤ k := by exact_mod_cast (by omega : 2048 ≤ k)
      linarith
  have hhi : (t : ℚ) / 2 ^ 53 * (2 ^ 32 - 1) ≤ k + 3 / 4 := by
    linarith
  have r1 : ((k : ℤ) : ℚ) ≤ round double (t / 2 ^ 53 * (2 ^ 32 - 1)) := by
    refine le_round double_prec (by push_cast; linarith) (rep_double_int ?_)
    rw [abs_of_nonneg (by omega)]; omega
  have r2 : round double (t / 2 ^ 53 * (2 ^ 32 - 1)) ≤ ((4 * (k : ℤ) + 3 : ℤ) : ℚ) / 2 ^ 2 := by
    refine round_le double_prec (by push_cast; linarith) (rep_div 2 (by decide) _ ?_)
    rw [abs_of_nonneg (by omega)]
    show _ < (2 : ℤ) ^ 53
    omega
  have : ⌊round double (t / 2 ^ 53 * (2 ^ 32 - 1))⌋ = (k : ℤ) := by
    rw [Int.floor_eq_iff]
    refine ⟨r1, ?_⟩
    push_cast at *
    linarith
  rw [this]

end Midi.Fp
