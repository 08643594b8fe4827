import Verif.Model.Float
import Verif.Spec.Float
import Mathlib.Tactic.Linarith
import Mathlib.Tactic.Positivity
import Mathlib.Tactic.FieldSimp
import Mathlib.Tactic.NormNum
import Mathlib.Tactic.Ring

namespace Midi.Fp

/-! Rounding to integers. -/

theorem rne_cases (y : ℚ) : (rne y = ⌊y⌋ ∧ y - ⌊y⌋ ≤ 1 / 2) ∨ (rne y = ⌊y⌋ + 1 ∧ 1 / 2 ≤ y - ⌊y⌋) := by
  unfold rne
  split
  · left; exact ⟨rfl, by linarith⟩
  · split
    · right; exact ⟨rfl, by linarith⟩
    · split
      · left; exact ⟨rfl, by linarith⟩
      · right; exact ⟨rfl, by linarith⟩

theorem rne_near (y : ℚ) : |(rne y : ℚ) - y| ≤ 1 / 2 := by
  have h1 := Int.floor_le y
  have h2 := Int.lt_floor_add_one y
  rw [abs_le]
  rcases rne_cases y with ⟨h, h'⟩ | ⟨h, h'⟩ <;> rw [h] <;> push_cast <;> constructor <;> linarith

theorem rne_nearest (y : ℚ) (n : ℤ) : |(rne y : ℚ) - y| ≤ |(n : ℚ) - y| := by
  have h1 := Int.floor_le y
  have h2 := Int.lt_floor_add_one y
  have hn : n ≤ ⌊y⌋ ∨ ⌊y⌋ + 1 ≤ n := by omega
  have hn' : (n : ℚ) ≤ ⌊y⌋ ∨ (⌊y⌋ : ℚ) + 1 ≤ n := by
    rcases hn with hn | hn
    · left; exact_mod_cast hn
    · right; exact_mod_cast hn
  have key : ∀ a b c : ℚ, (-a ≤ c ∧ c ≤ a) → a ≤ b → |c| ≤ b := fun a b c h h' => abs_le.2 ⟨by linarith, by linarith⟩
  rcases rne_cases y with ⟨h, h'⟩ | ⟨h, h'⟩ <;> rw [h] <;> push_cast <;> rcases hn' with hn | hn
  · rw [abs_of_nonpos (a := (⌊y⌋ : ℚ) - y) (by linarith), abs_of_nonpos (a := (n : ℚ) - y) (by linarith)]; linarith
  · rw [abs_of_nonpos (a := (⌊y⌋ : ℚ) - y) (by linarith), abs_of_nonneg (a := (n : ℚ) - y) (by linarith)]; linarith
  · rw [abs_of_nonneg (a := (⌊y⌋ : ℚ) + 1 - y) (by linarith), abs_of_nonpos (a := (n : ℚ) - y) (by linarith)]; linarith
  · rw [abs_of_nonneg (a := (⌊y⌋ : ℚ) + 1 - y) (by linarith), abs_of_nonneg (a := (n : ℚ) - y) (by linarith)]; linarith

theorem rne_int (n : ℤ) : rne n = n := by
  unfold rne
  rw [Int.floor_intCast]
  simp

theorem rne_mono {y z : ℚ} (h : y ≤ z) : rne y ≤ rne z := by
  have hf := Int.floor_le_floor h
  by_cases he : ⌊y⌋ = ⌊z⌋
  · unfold rne
    rw [he]
    split
    · split
      · exact le_refl _
      · split
        · omega
        · split <;> omega
    · split
      · rw [if_neg (by linarith), if_pos (by linarith)]
      · rw [if_neg (c := z - _ < 1 / 2) (by linarith)]
        split
        · split <;> omega
        · split <;> omega
  · rcases rne_cases y with ⟨h1, _⟩ | ⟨h1, _⟩ <;> rcases rne_cases z with ⟨h2, _⟩ | ⟨h2, _⟩ <;> omega

theorem rne_le {y : ℚ} {n : ℤ} (h : y ≤ n) : rne y ≤ n := by
  rw [← rne_int n]; exact rne_mono h

theorem le_rne {y : ℚ} {n : ℤ} (h : (n : ℚ) ≤ y) : n ≤ rne y := by
  rw [← rne_int n]; exact rne_mono h

/-! Powers of two. -/

theorem two_pos (e : ℤ) : (0 : ℚ) < 2 ^ e := zpow_pos (by norm_num) e

theorem two_le {a b : ℤ} (h : a ≤ b) : (2 : ℚ) ^ a ≤ 2 ^ b := zpow_le_zpow_right₀ (by norm_num) h

theorem two_lt {a b : ℤ} : (2 : ℚ) ^ a < 2 ^ b ↔ a < b := zpow_lt_zpow_iff_right₀ (by norm_num)

theorem two_add (a b : ℤ) : (2 : ℚ) ^ (a + b) = 2 ^ a * 2 ^ b := zpow_add₀ (by norm_num) a b

theorem log_le {x : ℚ} (h : 0 < x) : (2 : ℚ) ^ Int.log 2 x ≤ x := by
  exact_mod_cast Int.zpow_log_le_self (b := 2) (by norm_num) h

theorem lt_log {x : ℚ} : x < (2 : ℚ) ^ (Int.log 2 x + 1) := by
  exact_mod_cast Int.lt_zpow_succ_log_self (b := 2) (by norm_num) x

/-- An integer multiple of a power of two, as an integer multiple of a smaller one. -/
theorem multiple {e u : ℤ} (h : u ≤ e) (m : ℤ) : ∃ n : ℤ, (m : ℚ) * 2 ^ e = n * 2 ^ u := by
  refine ⟨m * 2 ^ (e - u).toNat, ?_⟩
  push_cast
  rw [mul_assoc, ← zpow_natCast, Int.toNat_of_nonneg (by omega), ← two_add]
  congr 2
  omega

/-! Rounding. -/

/-- Numbers with the precision of the format. -/
def Rep (F : Fmt) (q : ℚ) : Prop := ∃ m e : ℤ, |m| < 2 ^ F.prec ∧ F.emin ≤ e ∧ q = m * 2 ^ e

theorem Rep.neg {F : Fmt} {q : ℚ} (h : Rep F q) : Rep F (-q) := by
  obtain ⟨m, e, h1, h2, h3⟩ := h
  exact ⟨-m, e, by rwa [abs_neg], h2, by rw [h3]; push_cast; ring⟩

theorem rep_lt {F : Fmt} {m : ℤ} (h : |m| < 2 ^ F.prec) : |(m : ℚ)| < 2 ^ (F.prec : ℤ) := by
  rw [zpow_natCast]
  exact_mod_cast h

/-- A representable number that is not smaller than the power of two below `x` is a multiple of the last digit of `x`. -/
theorem Rep.multiple {F : Fmt} {q x : ℚ} (h : Rep F q) (hq : (2 : ℚ) ^ Int.log 2 x ≤ |q|) :
    ∃ n : ℤ, q = n * 2 ^ ulpExp F x := by
  obtain ⟨m, e, h1, h2, h3⟩ := h
  have hlt : |q| < 2 ^ ((F.prec : ℤ) + e) := by
    rw [h3, abs_mul, abs_of_pos (two_pos e), two_add]
    exact mul_lt_mul_of_pos_right (rep_lt h1) (two_pos e)
  have := two_lt.1 (lt_of_le_of_lt hq hlt)
  obtain ⟨n, hn⟩ := Fp.multiple (e := e) (u := ulpExp F x) (by unfold ulpExp; omega) m
  exact ⟨n, by rw [h3, hn]⟩

/-- The power of two below `x` is a multiple of the last digit of `x`, unless it is smaller. -/
theorem pow_multiple {F : Fmt} (hp : 0 < F.prec) {x : ℚ} {k : ℤ} (h : ulpExp F x ≤ k) :
    ∃ n : ℤ, (2 : ℚ) ^ k = n * 2 ^ ulpExp F x := by
  obtain ⟨n, hn⟩ := Fp.multiple h 1
  exact ⟨n, by rw [← hn]; simp⟩

theorem roundPos_eq {F : Fmt} {x : ℚ} {n : ℤ} (h : x = n * 2 ^ ulpExp F x) : roundPos F x = x := by
  have hne : (2 : ℚ) ^ ulpExp F x ≠ 0 := ne_of_gt (two_pos _)
  unfold roundPos
  have : x / 2 ^ ulpExp F x = n := by
    rw [div_eq_iff hne]; exact h
  rw [this, rne_int, ← h]

theorem roundPos_rep {F : Fmt} {x : ℚ} (hx : 0 < x) (h : Rep F x) : roundPos F x = x := by
  obtain ⟨n, hn⟩ := h.multiple (x := x) (by rw [abs_of_pos hx]; exact log_le hx)
  exact roundPos_eq hn

theorem roundPos_le_of {F : Fmt} {x y : ℚ} {n : ℤ} (h : x ≤ y) (hy : y = n * 2 ^ ulpExp F x) : roundPos F x ≤ y := by
  unfold roundPos
  rw [hy]
  refine mul_le_mul_of_nonneg_right ?_ (le_of_lt (two_pos _))
  have : rne (x / 2 ^ ulpExp F x) ≤ n := rne_le (by rw [div_le_iff₀ (two_pos _), ← hy]; exact h)
  exact_mod_cast this

theorem le_roundPos_of {F : Fmt} {x y : ℚ} {n : ℤ} (h : y ≤ x) (hy : y = n * 2 ^ ulpExp F x) : y ≤ roundPos F x := by
  unfold roundPos
  rw [hy]
  refine mul_le_mul_of_nonneg_right ?_ (le_of_lt (two_pos _))
  have : n ≤ rne (x / 2 ^ ulpExp F x) := le_rne (by rw [le_div_iff₀ (two_pos _), ← hy]; exact h)
  exact_mod_cast this

theorem roundPos_nonneg {F : Fmt} {x : ℚ} (hx : 0 ≤ x) : 0 ≤ roundPos F x :=
  le_roundPos_of (n := 0) hx (by simp)

theorem log_mono {x y : ℚ} (hx : 0 < x) (h : x ≤ y) : Int.log 2 x ≤ Int.log 2 y := Int.log_mono_right hx h

theorem roundPos_mono {F : Fmt} (hp : 0 < F.prec) {x y : ℚ} (hx : 0 < x) (h : x ≤ y) : roundPos F x ≤ roundPos F y := by
  have hl := log_mono hx h
  by_cases he : ulpExp F x = ulpExp F y
  · unfold roundPos
    rw [he]
    refine mul_le_mul_of_nonneg_right ?_ (le_of_lt (two_pos _))
    exact_mod_cast rne_mono (div_le_div_of_nonneg_right h (le_of_lt (two_pos _)))
  · have hlt : Int.log 2 x < Int.log 2 y ∧ ulpExp F x ≤ Int.log 2 y ∧ ulpExp F y ≤ Int.log 2 y := by
      unfold ulpExp at *
      omega
    obtain ⟨n, hn⟩ := pow_multiple hp hlt.2.1
    obtain ⟨n', hn'⟩ := pow_multiple hp hlt.2.2
    have h1 : x ≤ 2 ^ Int.log 2 y := le_trans (le_of_lt lt_log) (two_le (by omega))
    exact le_trans (roundPos_le_of h1 hn) (le_roundPos_of (log_le (lt_of_lt_of_le hx h)) hn')

theorem round_pos {F : Fmt} {x : ℚ} (h : 0 < x) : round F x = roundPos F x := by
  unfold round; rw [if_pos h]

theorem round_neg (F : Fmt) (x : ℚ) : round F (-x) = -round F x := by
  unfold round
  rcases lt_trichotomy x 0 with h | h | h
  · rw [if_pos (by linarith), if_neg (by linarith), if_pos h, neg_neg]
  · subst h; simp
  · rw [if_neg (by linarith), if_pos (by linarith), if_pos h, neg_neg]

theorem round_zero (F : Fmt) : round F 0 = 0 := by
  unfold round; simp

theorem round_rep {F : Fmt} {x : ℚ} (h : Rep F x) : round F x = x := by
  rcases lt_trichotomy x 0 with hx | hx | hx
  · have := roundPos_rep (by linarith) h.neg
    unfold round
    rw [if_neg (by linarith), if_pos hx, this, neg_neg]
  · subst hx; exact round_zero F
  · rw [round_pos hx, roundPos_rep hx h]

theorem round_nonneg {F : Fmt} {x : ℚ} (h : 0 ≤ x) : 0 ≤ round F x := by
  rcases lt_or_eq_of_le h with h | h
  · rw [round_pos h]; exact roundPos_nonneg (le_of_lt h)
  · subst h; rw [round_zero]

theorem round_mono {F : Fmt} (hp : 0 < F.prec) {x y : ℚ} (h : x ≤ y) : round F x ≤ round F y := by
  rcases lt_or_ge 0 x with hx | hx
  · rw [round_pos hx, round_pos (by linarith)]
    exact roundPos_mono hp hx h
  · rcases lt_or_ge y 0 with hy | hy
    · have := roundPos_mono hp (x := -y) (y := -x) (by linarith) (by linarith)
      rw [← round_pos (by linarith), ← round_pos (by linarith), round_neg, round_neg] at this
      linarith
    · have h1 := round_nonneg (F := F) hy
      have h2 := round_nonneg (F := F) (x := -x) (by linarith)
      rw [round_neg] at h2
      linarith

theorem round_le {F : Fmt} (hp : 0 < F.prec) {x y : ℚ} (h : x ≤ y) (hy : Rep F y) : round F x ≤ y := by
  rw [← round_rep hy]; exact round_mono hp h

theorem le_round {F : Fmt} (hp : 0 < F.prec) {x y : ℚ} (h : y ≤ x) (hy : Rep F y) : y ≤ round F x := by
  rw [← round_rep hy]; exact round_mono hp h

/-- The distance to the exact value is at most half a unit of the last digit. -/
theorem round_half {F : Fmt} {x : ℚ} (hx : 0 < x) : |round F x - x| ≤ 2 ^ ulpExp F x / 2 := by
  rw [round_pos hx]
  unfold roundPos
  have hu := two_pos (ulpExp F x)
  have := rne_near (x / 2 ^ ulpExp F x)
  have he : (rne (x / 2 ^ ulpExp F x) : ℚ) * 2 ^ ulpExp F x - x =
      ((rne (x / 2 ^ ulpExp F x) : ℚ) - x / 2 ^ ulpExp F x) * 2 ^ ulpExp F x := by
    rw [sub_mul, div_mul_cancel₀ _ (ne_of_gt hu)]
  rw [he, abs_mul, abs_of_pos hu]
  have := mul_le_mul_of_nonneg_right this (le_of_lt hu)
  linarith

/-- The relative error, except for numbers near the smallest ones. -/
theorem round_relative {F : Fmt} {x : ℚ} (hx : 2 ^ (F.emin + F.prec - 1) ≤ x) :
    |round F x - x| ≤ x / 2 ^ F.prec := by
  have hx0 : 0 < x := lt_of_lt_of_le (two_pos _) hx
  have hl : F.emin + F.prec - 1 ≤ Int.log 2 x := by
    have := two_lt.1 (lt_of_le_of_lt hx (lt_log (x := x)))
    omega
  have hu : ulpExp F x = Int.log 2 x - (F.prec - 1) := by
    unfold ulpExp; omega
  have h1 := round_half (F := F) hx0
  have h2 : (2 : ℚ) ^ ulpExp F x * 2 ^ F.prec = 2 ^ Int.log 2 x * 2 := by
    rw [hu, ← zpow_natCast, ← two_add, show Int.log 2 x - ((F.prec : ℤ) - 1) + F.prec = Int.log 2 x + 1 by omega, two_add]
    norm_num
  have h3 := log_le hx0
  have hp : (0 : ℚ) < 2 ^ F.prec := by positivity
  rw [le_div_iff₀ hp]
  have := mul_le_mul_of_nonneg_right h1 (le_of_lt hp)
  linarith

/-- The error is at most half the last digit of any larger power of two. -/
theorem round_absolute {F : Fmt} {x : ℚ} {k : ℤ} (hx : 0 < x) (hk : x < 2 ^ (k + 1)) (he : F.emin + F.prec - 1 ≤ k) :
    |round F x - x| ≤ 2 ^ (k - F.prec) := by
  have h1 := round_half (F := F) hx
  have h2 : Int.log 2 x < k + 1 := two_lt.1 (lt_of_le_of_lt (log_le hx) hk)
  have h3 : ulpExp F x ≤ k - F.prec + 1 := by unfold ulpExp; omega
  have h4 := two_le h3
  rw [two_add] at h4
  norm_num at h4
  linarith

theorem rep_round {F : Fmt} (hp : 0 < F.prec) (x : ℚ) : Rep F (round F x) := by
  have key : ∀ x : ℚ, 0 < x → Rep F (roundPos F x) := by
    intro x hx
    have hu : F.emin ≤ ulpExp F x := by unfold ulpExp; omega
    have hle : rne (x / 2 ^ ulpExp F x) ≤ 2 ^ F.prec := by
      refine rne_le ?_
      rw [div_le_iff₀ (two_pos _)]
      push_cast
      rw [← zpow_natCast, ← two_add]
      exact le_trans (le_of_lt lt_log) (two_le (by unfold ulpExp; omega))
    have h0 : 0 ≤ rne (x / 2 ^ ulpExp F x) :=
      le_rne (by push_cast; exact div_nonneg (le_of_lt hx) (le_of_lt (two_pos _)))
    rcases lt_or_eq_of_le hle with h | h
    · exact ⟨_, _, by rwa [abs_of_nonneg h0], hu, rfl⟩
    · refine ⟨2 ^ (F.prec - 1), ulpExp F x + 1, ?_, by omega, ?_⟩
      · rw [abs_of_nonneg (by positivity)]
        exact pow_lt_pow_right₀ (by norm_num) (by omega)
      · unfold roundPos
        rw [h, two_add]
        push_cast
        rw [show (2 : ℚ) ^ F.prec = 2 ^ (F.prec - 1) * 2 by rw [← pow_succ]; congr 1; omega]
        norm_num
        ring
  rcases lt_trichotomy x 0 with hx | hx | hx
  · have := (key (-x) (by linarith)).neg
    unfold round
    rwa [if_neg (by linarith), if_pos hx]
  · subst hx
    rw [round_zero]
    exact ⟨0, F.emin, by simp, le_refl _, by simp⟩
  · rw [round_pos hx]; exact key x hx

theorem round_nearest {F : Fmt} (hp : 0 < F.prec) (x q : ℚ) (hq : Rep F q) : |round F x - x| ≤ |q - x| := by
  have key : ∀ x q : ℚ, 0 < x → Rep F q → |roundPos F x - x| ≤ |q - x| := by
    intro x q hx hq
    have mult : ∀ n : ℤ, |roundPos F x - x| ≤ |(n : ℚ) * 2 ^ ulpExp F x - x| := by
      intro n
      have hu := two_pos (ulpExp F x)
      have e : ∀ a : ℚ, a * 2 ^ ulpExp F x - x = (a - x / 2 ^ ulpExp F x) * 2 ^ ulpExp F x := by
        intro a
        rw [sub_mul, div_mul_cancel₀ _ (ne_of_gt hu)]
      unfold roundPos
      rw [e, e, abs_mul, abs_mul]
      exact mul_le_mul_of_nonneg_right (rne_nearest _ _) (abs_nonneg _)
    by_cases hb : (2 : ℚ) ^ Int.log 2 x ≤ |q|
    · obtain ⟨n, hn⟩ := hq.multiple hb
      have := mult n
      rwa [← hn] at this
    · have hl := log_le hx
      have hqlt : q < 2 ^ Int.log 2 x := lt_of_le_of_lt (le_abs_self q) (by linarith)
      by_cases hul : ulpExp F x ≤ Int.log 2 x
      · obtain ⟨n, hn⟩ := pow_multiple hp hul
        have := mult n
        rw [← hn] at this
        rw [abs_of_nonpos (a := (2 : ℚ) ^ Int.log 2 x - x) (by linarith)] at this
        rw [abs_of_nonpos (a := q - x) (by linarith)]
        linarith
      · -- below the smallest number: everything is a multiple
        obtain ⟨m, e, h1, h2, h3⟩ := hq
        have : ulpExp F x ≤ e := by unfold ulpExp at *; omega
        obtain ⟨n, hn⟩ := Fp.multiple this m
        have := mult n
        rwa [← hn, ← h3] at this
  rcases lt_trichotomy x 0 with hx | hx | hx
  · have := key (-x) (-q) (by linarith) hq.neg
    rw [← round_pos (by linarith), round_neg] at this
    rw [← abs_neg (round F x - x), ← abs_neg (q - x)]
    convert this using 2 <;> ring
  · subst hx
    rw [round_zero]; simp
  · rw [round_pos hx]; exact key x q hx hq

end Midi.Fp
