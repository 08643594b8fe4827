import Verif.Props.Float
import Verif.Lemmas.FloatPitchTypes

/-!
C50 for pitch bends, pitches and pitch increments.
-/

namespace Midi.Fp

open Flt Spec.Fp

/-- C50: the conversion of a `float` or `double` to a pitch bend is defined for all numbers including the infinities, clamps to
the range, and maps 0 to the centre. -/
theorem C50_pitch_bend_defined (F : Fmt) (hF : F = single ∨ F = double) (f : Flt) (hf : f ≠ .nan) :
    ∃ v, pitchBendOf F f = .ok v ∧ (f.le (fin (-1)) → v = 0) ∧ ((fin 1).le f → v = 0xFFFFFFFF) ∧
      (f = fin 0 → v = 0x80000000) := by
  have hp := fmt_prec hF
  have em : bend F (fin (-1)) = fin 0 := by rcases hF with rfl | rfl <;> decide +kernel
  have e1 : bend F (fin 1) = fin 1 := by rcases hF with rfl | rfl <;> decide +kernel
  have e0 : bend F (fin 0) = fin (1 / 2) := by rcases hF with rfl | rfl <;> decide +kernel
  obtain ⟨v, h1, h2⟩ := fromFloat01_toNat (n := 32) (by decide) (by decide) (bend_ne_nan hp hf)
  simp only [show 32 - 1 = 31 from rfl] at h2
  refine ⟨v, h1, ?_, ?_, ?_⟩
  · intro h
    have a := fval_mono (K := 2 ^ 31) (by decide) (by decide) (bend_mono hp h)
    have b := (fval_range (K := 2 ^ 31) (by decide) (by decide) (bend F f)).1
    rw [em, show fval (2 ^ 31) (fin 0) = 0 by decide +kernel] at a
    apply BitVec.eq_of_toNat_eq
    show v.toNat = 0
    omega
  · intro h
    have a := fval_mono (K := 2 ^ 31) (by decide) (by decide) (bend_mono hp h)
    have b := (fval_range (K := 2 ^ 31) (by decide) (by decide) (bend F f)).2
    rw [e1, show fval (2 ^ 31) (fin 1) = 4294967295 by decide +kernel] at a
    apply BitVec.eq_of_toNat_eq
    show v.toNat = 4294967295
    omega
  · rintro rfl
    rw [e0, show fval (2 ^ 31) (fin (1 / 2)) = 2147483648 by decide +kernel] at h2
    apply BitVec.eq_of_toNat_eq
    show v.toNat = 2147483648
    omega

example := C50_pitch_bend_defined double (Or.inr rfl) (.inf true) (by decide)

/-- C50: the conversion of a `float` or `double` to a pitch bend is monotone. -/
theorem C50_pitch_bend_monotone (F : Fmt) (hF : F = single ∨ F = double) (f g : Flt) (v w : Word) (h : f.le g)
    (hv : pitchBendOf F f = .ok v) (hw : pitchBendOf F g = .ok w) : v ≤ w := by
  have hp := fmt_prec hF
  obtain ⟨hf, hg⟩ := not_nan_of_le h
  obtain ⟨v', h1, h2⟩ := fromFloat01_toNat (n := 32) (by decide) (by decide) (bend_ne_nan hp hf)
  obtain ⟨w', h3, h4⟩ := fromFloat01_toNat (n := 32) (by decide) (by decide) (bend_ne_nan hp hg)
  cases hv.symm.trans h1
  cases hw.symm.trans h3
  have := fval_mono (K := 2 ^ 31) (by decide) (by decide) (bend_mono hp h)
  simp only [show 32 - 1 = 31 from rfl] at h2 h4
  rw [BitVec.le_def]
  omega

example := C50_pitch_bend_monotone double (Or.inr rfl) (fin 0) (.inf false) 0x80000000 0xFFFFFFFF (by decide +kernel) (by decide +kernel)
  (by decide +kernel)

/-- C50: a pitch bend is converted to a number between -1 and 1, order is preserved, and minimum, centre and maximum are
converted to -1, 0 and 1. -/
theorem C50_pitch_bend_as_double :
    (∀ v : Word, ∃ q, pitchBendAsDouble v = fin q ∧ -1 ≤ q ∧ q ≤ 1) ∧
    (∀ v w : Word, v ≤ w → (pitchBendAsDouble v).le (pitchBendAsDouble w)) ∧
    pitchBendAsDouble 0 = fin (-1) ∧ pitchBendAsDouble 0x80000000 = fin 0 ∧ pitchBendAsDouble 0xFFFFFFFF = fin 1 := by
  refine ⟨fun v => ⟨_, pitchBendAsDouble_eq v, (bendValue_range v.isLt).1, (bendValue_range v.isLt).2.1⟩, fun v w h => ?_,
    by decide +kernel, by decide +kernel, by decide +kernel⟩
  rw [pitchBendAsDouble_eq, pitchBendAsDouble_eq]
  exact decide_eq_true (bendValue_mono w.isLt (BitVec.le_def.1 h))

/-- C50: the same for `float`. -/
theorem C50_pitch_bend_as_float :
    (∀ v : Word, ∃ q, pitchBendAsFloat v = fin q ∧ -1 ≤ q ∧ q ≤ 1) ∧
    (∀ v w : Word, v ≤ w → (pitchBendAsFloat v).le (pitchBendAsFloat w)) ∧
    pitchBendAsFloat 0 = fin (-1) ∧ pitchBendAsFloat 0x80000000 = fin 0 ∧ pitchBendAsFloat 0xFFFFFFFF = fin 1 := by
  have e : ∀ v : Word, pitchBendAsFloat v = fin (round single (bendValue v.toNat)) := by
    intro v
    unfold pitchBendAsFloat
    rw [pitchBendAsDouble_eq]
    show ofRat single _ = _
    obtain ⟨a, b, -⟩ := bendValue_range v.isLt
    rw [ofRat_big (Or.inl rfl)]
    exact le_trans (abs_le.2 ⟨a, b⟩) (by norm_num)
  refine ⟨fun v => ⟨_, e v, ?_, ?_⟩, fun v w h => ?_, by decide +kernel, by decide +kernel, by decide +kernel⟩
  · exact le_round single_prec (bendValue_range v.isLt).1 (rep_one (Or.inl rfl)).neg
  · exact round_le single_prec (bendValue_range v.isLt).2.1 (rep_one (Or.inl rfl))
  · rw [e, e]
    exact decide_eq_true (round_mono single_prec (bendValue_mono w.isLt (BitVec.le_def.1 h)))

/-- C50: a pitch bend converted to `double` and back is the same pitch bend. Partial: the 512 values next to the centre are
excluded, see `C50_pitch_bend_differs`. -/
theorem C50_pitch_bend_round_trip_partial (v : Word) (h : v ≤ 0x80000000 ∨ 0x80000200 < v) :
    pitchBendOf double (pitchBendAsDouble v) = .ok v := by
  have hlt := v.isLt
  have fin' : ∀ x, bend double (fin (bendValue v.toNat)) = fin x → val (2 ^ 31) x = v.toNat →
      pitchBendOf double (pitchBendAsDouble v) = .ok v := by
    intro x h1 h2
    rw [pitchBendAsDouble_eq]
    show fromFloat01 32 (bend double (fin (bendValue v.toNat))) = _
    rw [h1, fromFloat01_fin (by decide) (by decide)]
    simp only [show 32 - 1 = 31 from rfl]
    rw [h2, BitVec.ofInt_natCast, BitVec.ofNat_toNat, BitVec.setWidth_eq]
  rcases h with h | h
  · have hn : v.toNat ≤ 2 ^ 31 := BitVec.le_def.1 h
    have e : bendValue v.toNat = ((v.toNat : ℚ) - 2 ^ 31) / 2 ^ 31 := by
      unfold bendValue
      by_cases hc : 2 ^ 31 ≤ v.toNat
      · have : v.toNat = 2 ^ 31 := by omega
        rw [this]
        decide +kernel
      · rw [if_neg hc]
    refine fin' _ (by rw [e]; exact bend_low hn) ?_
    exact val_low_trip (K := 2 ^ 31) (by decide) (by decide) hn
  · have hn : 2 ^ 31 + 512 < v.toNat := BitVec.lt_def.1 h
    by_cases hc : v.toNat = 2 ^ 32 - 1
    · have : v = 0xFFFFFFFF := BitVec.eq_of_toNat_eq hc
      subst this
      decide +kernel
    · have e : bendValue v.toNat = round double (((v.toNat - 2 ^ 31 : ℕ) : ℚ) / (2 ^ 31 - 1)) := by
        unfold bendValue
        rw [if_pos (by omega), Nat.cast_sub (by omega)]
        push_cast
        norm_num
      obtain ⟨x, h1, h2⟩ := val_bend_high (k := v.toNat - 2 ^ 31) (by omega) (by omega)
      refine fin' x (by rw [e]; exact h1) ?_
      rw [h2]
      omega

/-- C50: each of the 512 pitch bends after the centre, converted to `double` and back, is one less. -/
theorem C50_pitch_bend_differs (k : ℕ) (h0 : 0 < k) (h1 : k ≤ 512) :
    pitchBendOf double (pitchBendAsDouble (BitVec.ofNat 32 (0x80000000 + k))) = .ok (BitVec.ofNat 32 (0x80000000 + k - 1)) := by
  have : ∀ k : Fin 513, 0 < k.val → pitchBendOf double (pitchBendAsDouble (BitVec.ofNat 32 (0x80000000 + k.val))) =
      .ok (BitVec.ofNat 32 (0x80000000 + k.val - 1)) := by decide +kernel
  exact this ⟨k, by omega⟩ h0

example : pitchBendOf double (pitchBendAsDouble 0x80000201) = .ok 0x80000201 := by decide +kernel

/-! Pitches. -/

theorem pval_zero (F : Fmt) (n : ℕ) (s : ℚ) : pval F n s 0 = 0 := if_pos (le_refl _)

/-- C50: the conversion of a `float` or `double` to `pitch_7_9` is defined for all arguments, including NaN, clamps to the
range and is monotone. -/
theorem C50_pitch_7_9 (F : Fmt) (hF : F = single ∨ F = double) :
    (∀ f, ∃ v, pitch79Of F f = .ok v ∧ (f.le (fin 0) → v = 0) ∧ ((fin 128).le f → v = 0xFFFF) ∧ (f = .nan → v = 0xFFFF)) ∧
    (∀ f g v w, f.le g → pitch79Of F f = .ok v → pitch79Of F g = .ok w → v ≤ w) := by
  have hp := fmt_prec hF
  have e := fun f => pitchOf_toNat hF 16 (s := 512) (by norm_num) (by norm_num) f
  simp only [pitch79Of_eq]
  refine ⟨fun f => ?_, fun f g v w h hv hw => ?_⟩
  · obtain ⟨v, h1, h2⟩ := e f
    have hr := pfval_range F 16 (s := 512) (by norm_num) f
    refine ⟨v, h1, fun h => ?_, fun h => ?_, fun h => ?_⟩
    · have a := pfval_mono hp 16 (s := 512) (by norm_num) h
      rw [show pfval F 16 512 (fin 0) = 0 from pval_zero F _ _] at a
      apply BitVec.eq_of_toNat_eq
      show v.toNat = 0
      omega
    · have a := pfval_mono hp 16 (s := 512) (by norm_num) h
      rw [show pfval F 16 512 (fin 128) = 65535 by rcases hF with rfl | rfl <;> decide +kernel] at a
      apply BitVec.eq_of_toNat_eq
      show v.toNat = 65535
      omega
    · subst h
      rw [show pfval F 16 512 .nan = 65535 from rfl] at h2
      apply BitVec.eq_of_toNat_eq
      show v.toNat = 65535
      omega
  · obtain ⟨v', h1, h2⟩ := e f
    obtain ⟨w', h3, h4⟩ := e g
    cases hv.symm.trans h1
    cases hw.symm.trans h3
    have := pfval_mono hp 16 (s := 512) (by norm_num) h
    rw [BitVec.le_def]
    omega

example := C50_pitch_7_9 single (Or.inl rfl)

/-- C50: a number between 0 and 128 is converted to the nearest pitch, with a resolution of 1/512; ties go up, and the
largest pitch is used if the number is too large by less than a unit. -/
theorem C50_pitch_7_9_nearest (q : ℚ) (h0 : 0 ≤ q) (h1 : q < 128) :
    (IsFloat q → ∃ v, pitch79Of single (fin q) = .ok v ∧ (v.toNat : ℤ) = min ⌊q * 512 + 1 / 2⌋ 0xFFFF) ∧
    (IsDouble q → ∃ v, pitch79Of double (fin q) = .ok v ∧ (v.toNat : ℤ) = min ⌊q * 512 + 1 / 2⌋ 0xFFFF) := by
  have key : ∀ F, F = single ∨ F = double → Rep F q → ∃ v, pitch79Of F (fin q) = .ok v ∧
      (v.toNat : ℤ) = min ⌊q * 512 + 1 / 2⌋ 0xFFFF := by
    intro F hF hr
    obtain ⟨v, h2, h3⟩ := pitchOf_toNat hF 16 (s := 2 ^ 9) (by norm_num) (by norm_num) (fin q)
    rw [show pfval F 16 (2 ^ 9) (fin q) = pval F 16 (2 ^ 9) q from rfl, pval_nearest 16 9 hr h0 h1] at h3
    rw [show (2 : ℚ) ^ 9 = 512 by norm_num] at h2 h3
    rw [← pitch79Of_eq] at h2
    exact ⟨v, h2, h3⟩
  exact ⟨fun h => key single (Or.inl rfl) h.1, fun h => key double (Or.inr rfl) h.1⟩

example := C50_pitch_7_9_nearest (121 / 2) (by norm_num) (by norm_num)

/-- C50: a `pitch_7_9` is converted exactly to `float` and `double`, and back to the same value. -/
theorem C50_pitch_7_9_round_trip (F : Fmt) (hF : F = single ∨ F = double) (v : U16) :
    pitch79As F v = fin ((v.toNat : ℚ) / 512) ∧ pitch79Of F (pitch79As F v) = .ok v := by
  have hlt := v.isLt
  have hr : Rep F ((v.toNat : ℚ) / 2 ^ 9) := by
    have habs : |(v.toNat : ℤ)| < 2 ^ 24 := by rw [abs_of_nonneg (by omega)]; omega
    have := rep_div (F := F) 9 (by rcases hF with rfl | rfl <;> decide) v.toNat (by
      rcases hF with rfl | rfl
      · exact habs
      · exact lt_of_lt_of_le habs (by decide))
    rwa [Int.cast_natCast] at this
  have hq0 : (0 : ℚ) ≤ v.toNat := Nat.cast_nonneg _
  have hq1 : (v.toNat : ℚ) ≤ 65536 := by exact_mod_cast le_of_lt hlt
  have e : pitch79As F v = fin ((v.toNat : ℚ) / 512) := by
    unfold pitch79As ofUnsigned
    rw [div_fin _ _ (by norm_num), ofRat_big hF, ← show (2 : ℚ) ^ 9 = 512 by norm_num, round_rep hr]
    rw [abs_of_nonneg (div_nonneg hq0 (by norm_num)), div_le_iff₀ (by norm_num)]
    linarith
  refine ⟨e, ?_⟩
  rw [e, pitch79Of_eq, pitchOf_eq hF 16 (by norm_num) (by norm_num)]
  have := pval_trip 16 9 hlt (by decide) hr
  rw [show (2 : ℚ) ^ 9 = 512 by norm_num] at this
  rw [show pfval F 16 512 (fin ((v.toNat : ℚ) / 512)) = pval F 16 512 ((v.toNat : ℚ) / 512) from rfl, this,
    BitVec.ofInt_natCast, BitVec.ofNat_toNat, BitVec.setWidth_eq]

example := C50_pitch_7_9_round_trip double (Or.inr rfl) 0x7A01

/-- C50: the conversion of a `float` or `double` to `pitch_7_25` is defined for all arguments, including NaN, clamps to the
range and is monotone. -/
theorem C50_pitch_7_25 (F : Fmt) (hF : F = single ∨ F = double) :
    (∀ f, ∃ v, pitch725Of F f = .ok v ∧ (f.le (fin 0) → v = 0) ∧ ((fin 128).le f → v = 0xFFFFFFFF) ∧
      (f = .nan → v = 0xFFFFFFFF)) ∧
    (∀ f g v w, f.le g → pitch725Of F f = .ok v → pitch725Of F g = .ok w → v ≤ w) := by
  have hp := fmt_prec hF
  have e := fun f => pitchOf_toNat hF 32 (s := 33554432) (by norm_num) (by norm_num) f
  simp only [pitch725Of_eq]
  refine ⟨fun f => ?_, fun f g v w h hv hw => ?_⟩
  · obtain ⟨v, h1, h2⟩ := e f
    have hr := pfval_range F 32 (s := 33554432) (by norm_num) f
    refine ⟨v, h1, fun h => ?_, fun h => ?_, fun h => ?_⟩
    · have a := pfval_mono hp 32 (s := 33554432) (by norm_num) h
      rw [show pfval F 32 33554432 (fin 0) = 0 from pval_zero F _ _] at a
      apply BitVec.eq_of_toNat_eq
      show v.toNat = 0
      omega
    · have a := pfval_mono hp 32 (s := 33554432) (by norm_num) h
      rw [show pfval F 32 33554432 (fin 128) = 4294967295 by rcases hF with rfl | rfl <;> decide +kernel] at a
      apply BitVec.eq_of_toNat_eq
      show v.toNat = 4294967295
      omega
    · subst h
      rw [show pfval F 32 33554432 .nan = 4294967295 from rfl] at h2
      apply BitVec.eq_of_toNat_eq
      show v.toNat = 4294967295
      omega
  · obtain ⟨v', h1, h2⟩ := e f
    obtain ⟨w', h3, h4⟩ := e g
    cases hv.symm.trans h1
    cases hw.symm.trans h3
    have := pfval_mono hp 32 (s := 33554432) (by norm_num) h
    rw [BitVec.le_def]
    omega

example := C50_pitch_7_25 single (Or.inl rfl)

/-- A representable number is converted to the nearest pitch. -/
theorem nearest725 (F : Fmt) (hF : F = single ∨ F = double) (q : ℚ) (h0 : 0 ≤ q) (h1 : q < 128) (hr : Rep F q) :
    ∃ v, pitch725Of F (fin q) = .ok v ∧ (v.toNat : ℤ) = min ⌊q * 33554432 + 1 / 2⌋ 0xFFFFFFFF := by
  obtain ⟨v, h2, h3⟩ := pitchOf_toNat hF 32 (s := 2 ^ 25) (by norm_num) (by norm_num) (fin q)
  rw [show pfval F 32 (2 ^ 25) (fin q) = pval F 32 (2 ^ 25) q from rfl, pval_nearest 32 25 hr h0 h1] at h3
  rw [show (2 : ℚ) ^ 25 = 33554432 by norm_num] at h2 h3
  rw [← pitch725Of_eq] at h2
  exact ⟨v, h2, h3⟩

/-- C50: a number between 0 and 128 is converted to the nearest pitch, with a resolution of 1/2^25; ties go up, and the
largest pitch is used if the number is too large by less than a unit. -/
theorem C50_pitch_7_25_nearest (q : ℚ) (h0 : 0 ≤ q) (h1 : q < 128) :
    (IsFloat q → ∃ v, pitch725Of single (fin q) = .ok v ∧ (v.toNat : ℤ) = min ⌊q * 33554432 + 1 / 2⌋ 0xFFFFFFFF) ∧
    (IsDouble q → ∃ v, pitch725Of double (fin q) = .ok v ∧ (v.toNat : ℤ) = min ⌊q * 33554432 + 1 / 2⌋ 0xFFFFFFFF) :=
  ⟨fun h => nearest725 single (Or.inl rfl) q h0 h1 h.1, fun h => nearest725 double (Or.inr rfl) q h0 h1 h.1⟩

example := C50_pitch_7_25_nearest (121 / 2) (by norm_num) (by norm_num)

/-- C50: a `pitch_7_25` is converted exactly to `double`, and back to the same value. -/
theorem C50_pitch_7_25_round_trip (v : Word) :
    pitch725AsDouble v = fin ((v.toNat : ℚ) / 33554432) ∧ pitch725Of double (pitch725AsDouble v) = .ok v := by
  have hlt := v.isLt
  have hF : double = single ∨ double = double := Or.inr rfl
  have hr : Rep double ((v.toNat : ℚ) / 2 ^ 25) := by
    have := rep_div (F := double) 25 (by decide) v.toNat (by
      rw [abs_of_nonneg (by omega)]; show (v.toNat : ℤ) < 2 ^ 53; omega)
    rwa [Int.cast_natCast] at this
  have hq0 : (0 : ℚ) ≤ v.toNat := Nat.cast_nonneg _
  have hq1 : (v.toNat : ℚ) ≤ 2 ^ 32 := by exact_mod_cast le_of_lt hlt
  have e : pitch725AsDouble v = fin ((v.toNat : ℚ) / 33554432) := by
    unfold pitch725AsDouble ofUnsigned
    rw [div_fin _ _ (by norm_num), ofRat_big hF, ← show (2 : ℚ) ^ 25 = 33554432 by norm_num, round_rep hr]
    rw [abs_of_nonneg (div_nonneg hq0 (by norm_num)), div_le_iff₀ (by norm_num)]
    linarith
  refine ⟨e, ?_⟩
  rw [e, pitch725Of_eq, pitchOf_eq hF 32 (by norm_num) (by norm_num)]
  have := pval_trip 32 25 hlt (by decide) hr
  rw [show (2 : ℚ) ^ 25 = 33554432 by norm_num] at this
  rw [show pfval double 32 33554432 (fin ((v.toNat : ℚ) / 33554432)) = pval double 32 33554432 ((v.toNat : ℚ) / 33554432)
    from rfl, this, BitVec.ofInt_natCast, BitVec.ofNat_toNat, BitVec.setWidth_eq]

/-- C50: the conversion of a `pitch_7_25` to `float` is the `float` closest to it, is monotone, and converting it back gives a
value at most 128 steps (one part in 2^18 of a semitone) off. -/
theorem C50_pitch_7_25_as_float :
    (∀ v : Word, ∃ r w, pitch725AsFloat v = fin r ∧ IsFloat r ∧ 0 ≤ r ∧ r ≤ 128 ∧
      (∀ q, IsFloat q → |r - (v.toNat : ℚ) / 33554432| ≤ |q - (v.toNat : ℚ) / 33554432|) ∧
      pitch725Of single (pitch725AsFloat v) = .ok w ∧ |(w.toNat : ℤ) - v.toNat| ≤ 128) ∧
    ∀ v w : Word, v ≤ w → (pitch725AsFloat v).le (pitch725AsFloat w) := by
  have e : ∀ v : Word, pitch725AsFloat v = ofRat single ((v.toNat : ℚ) / 33554432) := fun v => by
    unfold pitch725AsFloat
    rw [(C50_pitch_7_25_round_trip v).1]; rfl
  have rng : ∀ v : Word, (0 : ℚ) ≤ (v.toNat : ℚ) / 33554432 ∧ (v.toNat : ℚ) / 33554432 ≤ 128 := fun v => by
    have h1 : (v.toNat : ℚ) ≤ 2 ^ 32 := by exact_mod_cast le_of_lt v.isLt
    exact ⟨div_nonneg (Nat.cast_nonneg _) (by norm_num), by rw [div_le_iff₀ (by norm_num)]; linarith⟩
  have f128 : IsFloat 128 := ⟨⟨1, 7, by decide, by decide, by norm_num⟩, by norm_num [abs_lt]⟩
  have f0 : IsFloat 0 := ⟨⟨0, 0, by decide, by decide, by norm_num⟩, by norm_num⟩
  refine ⟨fun v => ?_, fun v w h => ?_⟩
  · obtain ⟨h0, h1⟩ := rng v
    have hlt := v.isLt
    have ef := ofRat_big (F := single) (x := (v.toNat : ℚ) / 33554432) (Or.inl rfl) (by
      rw [abs_of_nonneg h0]; exact le_trans h1 (by norm_num))
    obtain ⟨hf, hn⟩ := (C50_rounding _ _).1 ef
    have r0 : 0 ≤ round single ((v.toNat : ℚ) / 33554432) := le_round single_prec h0 f0.1
    have r1 : round single ((v.toNat : ℚ) / 33554432) ≤ 128 := round_le single_prec h1 f128.1
    generalize round single ((v.toNat : ℚ) / 33554432) = r at *
    -- a multiple of 2^-17 is close
    have hclose : |r - (v.toNat : ℚ) / 33554432| ≤ 128 / 33554432 := by
      have hk : ∃ k : ℕ, k ≤ 2 ^ 24 ∧ |(k : ℤ) * 256 - v.toNat| ≤ 128 :=
        ⟨(v.toNat + 128) / 256, by omega, by rw [abs_le]; constructor <;> omega⟩
      obtain ⟨k, hk, hd⟩ := hk
      have hkf : IsFloat ((k : ℚ) / 2 ^ 17) := by
        refine ⟨?_, ?_⟩
        · rcases Nat.lt_or_ge k (2 ^ 24) with h | h
          · exact ⟨k, -17, by rw [abs_of_nonneg (by omega)]; exact_mod_cast h, by decide, by
              rw [zpow_neg]; simp only [Int.cast_natCast]; norm_num; ring⟩
          · obtain rfl : k = 2 ^ 24 := by omega
            exact ⟨1, 7, by decide, by decide, by norm_num⟩
        · have : (k : ℚ) ≤ 2 ^ 24 := by exact_mod_cast hk
          rw [abs_of_nonneg (div_nonneg (Nat.cast_nonneg _) (by norm_num)), div_lt_iff₀ (by norm_num)]
          refine lt_of_le_of_lt this ?_
          norm_num
      refine le_trans (hn _ hkf) ?_
      have hd' : |(k : ℚ) * 256 - v.toNat| ≤ 128 := by exact_mod_cast hd
      rw [abs_le] at hd' ⊢
      constructor
      · rw [← sub_nonneg]; linarith [hd'.1, hd'.2]
      · rw [← sub_nonneg]; linarith [hd'.1, hd'.2]
    rw [abs_le] at hclose
    rw [e, ef]
    rcases lt_or_eq_of_le r1 with hr | rfl
    · obtain ⟨w, h2, h3⟩ := (C50_pitch_7_25_nearest r r0 hr).1 hf
      refine ⟨r, w, rfl, hf, r0, r1, hn, h2, ?_⟩
      have a1 : (v.toNat : ℤ) - 128 ≤ ⌊r * 33554432 + 1 / 2⌋ := by
        rw [Int.le_floor]; push_cast; linarith [hclose.1]
      have a2 : ⌊r * 33554432 + 1 / 2⌋ ≤ (v.toNat : ℤ) + 128 := by
        rw [← Int.lt_add_one_iff, Int.floor_lt]; push_cast; linarith [hclose.2]
      rw [abs_le]
      constructor <;> omega
    · refine ⟨128, 0xFFFFFFFF, rfl, hf, r0, r1, hn, by decide +kernel, ?_⟩
      have : (2 : ℚ) ^ 32 - 128 ≤ v.toNat := by linarith [hclose.2]
      have : 2 ^ 32 - 128 ≤ v.toNat := by
        have h : ((2 ^ 32 - 128 : ℕ) : ℚ) ≤ v.toNat := by push_cast; linarith
        exact_mod_cast h
      rw [show (0xFFFFFFFF : Word).toNat = 4294967295 from rfl, abs_le]
      constructor <;> omega
  · rw [e, e]
    refine ofRat_mono single_prec ?_
    have : (v.toNat : ℚ) ≤ w.toNat := by exact_mod_cast BitVec.le_def.1 h
    exact div_le_div_of_nonneg_right this (by norm_num)

/-- C50: the range of `pitch_7_25::as_float` is documented as [0 .. 128) (docs/types.md). The 128 highest pitches are converted to
128, all others to less. -/
theorem C50_pitch_7_25_float_range (v : Word) :
    (0xFFFFFF80 ≤ v → pitch725AsFloat v = fin 128) ∧ (¬ 0xFFFFFF80 ≤ v → ∃ r, pitch725AsFloat v = fin r ∧ 0 ≤ r ∧ r < 128) := by
  obtain ⟨h1, hm⟩ := C50_pitch_7_25_as_float
  obtain ⟨r, w, e, -, r0, r1, -⟩ := h1 v
  have a : pitch725AsFloat 0xFFFFFF80 = fin 128 := by decide +kernel
  have b : pitch725AsFloat 0xFFFFFF7F = fin (16777215 / 131072) := by decide +kernel
  refine ⟨fun h => ?_, fun h => ⟨r, e, r0, ?_⟩⟩
  · have := hm _ _ h
    rw [a, e, le_fin] at this
    rw [e, le_antisymm r1 (of_decide_eq_true this)]
  · have := hm v 0xFFFFFF7F (by
      rw [BitVec.le_def] at h ⊢
      rw [show (0xFFFFFF80 : Word).toNat = 4294967168 from rfl] at h
      rw [show (0xFFFFFF7F : Word).toNat = 4294967167 from rfl]
      omega)
    rw [b, e, le_fin] at this
    exact lt_of_le_of_lt (of_decide_eq_true this) (by norm_num)

/-- C50: the same is false for `float`, which has fewer digits than the type. -/
theorem C50_pitch_7_25_float_differs :
    pitch725Of single (pitch725AsFloat 0x78000001) = .ok 0x78000000 := by decide +kernel

-- a quarter tone above middle C, and a number that is rounded up to the next note
example : pitch79Of single (fin (121 / 2)) = .ok 0x7900 ∧ pitch79Of single (fin (61 - 1 / 2048)) = .ok 0x7A00 := by
  decide +kernel
example : IsFloat (121 / 2) := ⟨⟨121, -1, by decide, by decide, by norm_num⟩, by norm_num [abs_lt]⟩

/-! Pitch increments. -/

/-- C50: the conversion of a number to a pitch increment is its multiple by 2^25, rounded to the nearest integer (ties away
from zero) and clamped to the range of the type; it is undefined behaviour if the argument is a `double` that is too large for
the smallest increment but is rounded to it. -/
theorem C50_pitch_increment_double (q : ℚ) (hq : IsDouble q) :
    (64 ≤ q → pitchIncrementOfDouble (fin q) = .ok 0x7FFFFFFF) ∧
    (0 ≤ q → q < 64 → ∃ v, pitchIncrementOfDouble (fin q) = .ok v ∧ v.toInt = min ⌊q * 33554432 + 1 / 2⌋ 0x7FFFFFFF) ∧
    (-64 + 1 / 2 ^ 26 < q → q < 0 → ∃ v, pitchIncrementOfDouble (fin q) = .ok v ∧ v.toInt = -⌊-q * 33554432 + 1 / 2⌋) ∧
    (-64 < q → q ≤ -64 + 1 / 2 ^ 26 → pitchIncrementOfDouble (fin q) = .error .signedOverflow) ∧
    (q ≤ -64 → pitchIncrementOfDouble (fin q) = .ok 0x80000000) := by
  have hrep : Rep double q := hq.1
  unfold pitchIncrementOfDouble
  simp only [le_fin, decide_eq_true_eq]
  refine ⟨?_, ?_, ?_, ?_, ?_⟩
  · intro h; rw [if_pos h]; rfl
  · intro h0 h1
    rw [if_neg (by linarith), if_neg (by linarith), if_pos h0]
    obtain ⟨v, h2, h3⟩ := nearest725 double (Or.inr rfl) q h0 (by linarith) hrep
    rw [h2]
    show ∃ v', (if v ≤ 0x7FFFFFFF then Except.ok v else Except.ok 0x7FFFFFFF) = .ok v' ∧ _
    have hfl : 0 ≤ ⌊q * 33554432 + 1 / 2⌋ := Int.floor_nonneg.2 (by linarith)
    by_cases hc : v ≤ 0x7FFFFFFF
    · refine ⟨v, if_pos hc, ?_⟩
      have : v.toNat ≤ 2147483647 := BitVec.le_def.1 hc
      rw [BitVec.toInt_eq_toNat_cond]
      split <;> omega
    · refine ⟨_, if_neg hc, ?_⟩
      have : 2147483647 < v.toNat := BitVec.lt_def.1 (BitVec.not_le.1 hc)
      rw [show (0x7FFFFFFF : Word).toInt = 2147483647 from rfl]
      omega
  · intro h0 h1
    rw [if_neg (by linarith), if_neg (by linarith [show (0 : ℚ) < 1 / 2 ^ 26 by norm_num]), if_neg (by linarith)]
    obtain ⟨v, h2, h3⟩ := nearest725 double (Or.inr rfl) (-q) (by linarith)
      (by linarith [show (0 : ℚ) < 1 / 2 ^ 26 by norm_num]) hrep.neg
    show ∃ v', (pitch725Of double (fin (-q)) >>= negate) = .ok v' ∧ _
    rw [h2]
    show ∃ v', negate v = .ok v' ∧ _
    have hfl : 0 ≤ ⌊-q * 33554432 + 1 / 2⌋ := Int.floor_nonneg.2 (by linarith)
    have hfu : ⌊-q * 33554432 + 1 / 2⌋ ≤ 2147483647 := by
      refine Int.floor_le_iff.2 ?_
      norm_num at *
      linarith
    have hne : v ≠ 0x80000000 := by
      rintro rfl
      rw [show (0x80000000 : Word).toNat = 2147483648 from rfl] at h3
      omega
    refine ⟨-v, if_neg hne, ?_⟩
    rw [BitVec.toInt_neg_of_ne_intMin (fun h => hne h), BitVec.toInt_eq_toNat_cond]
    split <;> omega
  · intro h0 h1
    rw [if_neg (by linarith [show (1 / 2 ^ 26 : ℚ) < 1 by norm_num]), if_neg (by linarith),
      if_neg (by linarith [show (1 / 2 ^ 26 : ℚ) < 1 by norm_num])]
    obtain ⟨v, h2, h3⟩ := nearest725 double (Or.inr rfl) (-q)
      (by linarith [show (1 / 2 ^ 26 : ℚ) < 1 by norm_num]) (by linarith) hrep.neg
    show (pitch725Of double (fin (-q)) >>= negate) = _
    rw [h2]
    show negate v = _
    have hfl : ⌊-q * 33554432 + 1 / 2⌋ = 2147483648 := by
      rw [Int.floor_eq_iff]
      constructor
      · push_cast
        norm_num at *
        linarith
      · push_cast
        norm_num at *
        linarith
    refine if_pos ?_
    apply BitVec.eq_of_toNat_eq
    show v.toNat = 2147483648
    omega
  · intro h
    rw [if_neg (by linarith), if_pos h]; rfl

-- the excluded numbers exist
example : IsDouble (-64 + 1 / 2 ^ 30) ∧ (-64 : ℚ) < -64 + 1 / 2 ^ 30 ∧ (-64 + 1 / 2 ^ 30 : ℚ) ≤ -64 + 1 / 2 ^ 26 := by
  refine ⟨⟨⟨-(2 ^ 36 - 1), -30, by decide, by decide, by norm_num⟩, ?_⟩, by norm_num, by norm_num⟩
  have : (2 : ℚ) ^ (7 : ℤ) < 2 ^ (1024 : ℤ) := two_lt.2 (by decide)
  refine lt_trans ?_ this
  norm_num [abs_lt]

/-- C50: the conversion of a `float` to a pitch increment is its multiple by 2^25, rounded to the nearest integer (ties away
from zero) and clamped to the range of the type. -/
theorem C50_pitch_increment_float (q : ℚ) (hq : IsFloat q) :
    (64 ≤ q → pitchIncrementOfFloat (fin q) = .ok 0x7FFFFFFF) ∧
    (0 ≤ q → q < 64 → ∃ v, pitchIncrementOfFloat (fin q) = .ok v ∧ v.toInt = ⌊q * 33554432 + 1 / 2⌋) ∧
    (-64 < q → q < 0 → ∃ v, pitchIncrementOfFloat (fin q) = .ok v ∧ v.toInt = -⌊-q * 33554432 + 1 / 2⌋) ∧
    (q ≤ -64 → pitchIncrementOfFloat (fin q) = .ok 0x80000000) := by
  have hrep : Rep single q := hq.1
  -- the distance to 64
  have hdist : ∀ x : ℚ, Rep single x → 0 ≤ x → x < 64 → ⌊x * 33554432 + 1 / 2⌋ ≤ 2147483647 ∧ 0 ≤ ⌊x * 33554432 + 1 / 2⌋ := by
    intro x hx h0 h1
    refine ⟨?_, Int.floor_nonneg.2 (by linarith)⟩
    refine Int.floor_le_iff.2 ?_
    by_cases hc : x < 32
    · push_cast
      linarith
    · obtain ⟨n, hn⟩ := hx.multiple (x := 32) (by
        rw [abs_of_nonneg h0]
        exact le_trans (log_le (by norm_num)) (not_lt.1 hc))
      rw [show ulpExp single 32 = -18 by decide +kernel, show (-18 : ℤ) = -((18 : ℕ) : ℤ) from rfl, pow_eq] at hn
      have hlt : (n : ℚ) < 2 ^ 24 := by
        rw [hn] at h1
        norm_num at *
        linarith
      have hlt' : n < 2 ^ 24 := by exact_mod_cast hlt
      have hle : (n : ℚ) + 1 ≤ 2 ^ 24 := by exact_mod_cast hlt'
      rw [hn]
      push_cast
      norm_num at *
      linarith
  unfold pitchIncrementOfFloat
  simp only [le_fin, decide_eq_true_eq]
  refine ⟨?_, ?_, ?_, ?_⟩
  · intro h; rw [if_pos h]; rfl
  · intro h0 h1
    rw [if_neg (by linarith), if_neg (by linarith), if_pos h0]
    obtain ⟨v, h2, h3⟩ := nearest725 single (Or.inl rfl) q h0 (by linarith) hrep
    refine ⟨v, h2, ?_⟩
    have := hdist q hrep h0 h1
    rw [BitVec.toInt_eq_toNat_cond]
    split <;> omega
  · intro h0 h1
    rw [if_neg (by linarith), if_neg (by linarith), if_neg (by linarith)]
    obtain ⟨v, h2, h3⟩ := nearest725 single (Or.inl rfl) (-q) (by linarith) (by linarith) hrep.neg
    show ∃ v', (pitch725Of single (fin (-q)) >>= negate) = .ok v' ∧ _
    rw [h2]
    show ∃ v', negate v = .ok v' ∧ _
    have := hdist (-q) hrep.neg (by linarith) (by linarith)
    have hne : v ≠ 0x80000000 := by
      rintro rfl
      rw [show (0x80000000 : Word).toNat = 2147483648 from rfl] at h3
      omega
    refine ⟨-v, if_neg hne, ?_⟩
    rw [BitVec.toInt_neg_of_ne_intMin (fun h => hne h), BitVec.toInt_eq_toNat_cond]
    split <;> omega
  · intro h
    rw [if_neg (by linarith), if_pos h]; rfl

example : pitchIncrementOfFloat (fin (-3 / 2)) = .ok (BitVec.ofInt 32 (-50331648)) := by decide +kernel

/-- C50: the conversion of NaN to a pitch increment is defined, but gives the smallest positive increment. -/
theorem C50_pitch_increment_nan : pitchIncrementOfFloat .nan = .ok 1 ∧ pitchIncrementOfDouble .nan = .ok 1 := by decide +kernel

/-- A 32-bit result. -/
theorem toNat_ofInt32 {x : ℤ} (h0 : 0 ≤ x) (h1 : x < 4294967296) : ((BitVec.ofInt 32 x).toNat : ℤ) = x := by
  rw [BitVec.toNat_ofInt]
  omega

theorem detune_up {v : Word} {f : Flt} {d : Word} (hc : (fin 0).le f) (h : pitch725Of double f = .ok d) :
    pitch725Detune v f = .ok (BitVec.ofInt 32 (if (v.toNat : ℤ) + d.toNat > 0xFFFFFFFF then 0xFFFFFFFF
      else (v.toNat : ℤ) + d.toNat)) := by
  have hv := v.isLt
  have hd := d.isLt
  unfold pitch725Detune
  rw [if_pos hc, h, ok_bind]
  rw [show chk64 ((v.toNat : ℤ) + d.toNat) = .ok ((v.toNat : ℤ) + d.toNat) from if_pos ⟨by omega, by omega⟩, ok_bind,
    pure_eq_ok]

theorem detune_down {v : Word} {f : Flt} {d : Word} (hc : ¬ (fin 0).le f) (h : pitch725Of double f.neg = .ok d) :
    pitch725Detune v f = .ok (BitVec.ofInt 32 (if (v.toNat : ℤ) - d.toNat < 0 then 0 else (v.toNat : ℤ) - d.toNat)) := by
  have hv := v.isLt
  have hd := d.isLt
  unfold pitch725Detune
  rw [if_neg hc, h, ok_bind]
  rw [show chk64 ((v.toNat : ℤ) - d.toNat) = .ok ((v.toNat : ℤ) - d.toNat) from if_pos ⟨by omega, by omega⟩, ok_bind,
    pure_eq_ok]

theorem detune_max {a b : ℕ} (ha : a < 2 ^ 32) (hb : b < 2 ^ 32) :
    ((BitVec.ofInt 32 (if (a : ℤ) + b > 0xFFFFFFFF then 0xFFFFFFFF else (a : ℤ) + b)).toNat : ℤ) = min ((a : ℤ) + b) 0xFFFFFFFF := by
  by_cases h : (a : ℤ) + b > 4294967295
  · rw [if_pos h, toNat_ofInt32 (by decide) (by decide), min_eq_right (le_of_lt h)]
  · rw [if_neg h, toNat_ofInt32 (by omega) (by omega), min_eq_left (not_lt.1 h)]

theorem detune_min {a b : ℕ} (ha : a < 2 ^ 32) (hb : b < 2 ^ 32) :
    ((BitVec.ofInt 32 (if (a : ℤ) - b < 0 then 0 else (a : ℤ) - b)).toNat : ℤ) = max ((a : ℤ) - b) 0 := by
  by_cases h : (a : ℤ) - b < 0
  · rw [if_pos h, toNat_ofInt32 (by decide) (by decide), max_eq_right (le_of_lt h)]
  · rw [if_neg h, toNat_ofInt32 (by omega) (by omega), max_eq_left (not_lt.1 h)]

/-- C50: adding a number of semitones to a pitch is defined for every argument; the number is converted to the nearest multiple
of 1/2^25, and the sum is clamped to the range. -/
theorem C50_detune (v : Word) (f : Flt) :
    ∃ d r, pitch725Of double (if (fin 0).le f then f else f.neg) = .ok d ∧ pitch725Detune v f = .ok r ∧
      (r.toNat : ℤ) = if (fin 0).le f then min ((v.toNat : ℤ) + d.toNat) 0xFFFFFFFF else max ((v.toNat : ℤ) - d.toNat) 0 := by
  by_cases hc : (fin 0).le f
  · obtain ⟨d, h1, -⟩ := (C50_pitch_7_25 double (Or.inr rfl)).1 f
    refine ⟨d, _, by rw [if_pos hc]; exact h1, detune_up hc h1, ?_⟩
    rw [if_pos hc]
    exact detune_max v.isLt d.isLt
  · obtain ⟨d, h1, -⟩ := (C50_pitch_7_25 double (Or.inr rfl)).1 f.neg
    refine ⟨d, _, by rw [if_neg hc]; exact h1, detune_down hc h1, ?_⟩
    rw [if_neg hc]
    exact detune_min v.isLt d.isLt

/-- C50: `float` is converted exactly before it is added. -/
theorem C50_detune_float (v : Word) (q : ℚ) (hq : IsFloat q) : pitch725DetuneFloat v (fin q) = pitch725Detune v (fin q) := by
  obtain ⟨⟨m, e, h1, h2, h3⟩, h4⟩ := hq
  have hr : Rep double q := ⟨m, e, lt_of_lt_of_le h1 (by decide), le_trans (by decide) h2, h3⟩
  unfold pitch725DetuneFloat
  have : (fin q).convert double = fin q := by
    show ofRat double q = _
    unfold ofRat
    have hb : (2 : ℚ) ^ (128 : ℤ) < 2 ^ (1024 : ℤ) := two_lt.2 (by decide)
    rw [round_rep hr]
    rw [abs_lt] at h4
    obtain ⟨h5, h6⟩ := h4
    show (if q ≥ 2 ^ (1024 : ℤ) then inf false else if q ≤ -2 ^ (1024 : ℤ) then inf true else fin q) = fin q
    rw [if_neg (not_le.2 (lt_trans h6 hb)), if_neg (not_le.2 (lt_trans (neg_lt_neg hb) h5))]
  rw [this]

example : pitch725Detune 0x78000000 (fin (-1 / 2)) = .ok 0x77000000 ∧ pitch725Detune 0 .nan = .ok 0 ∧
    pitch725Detune 5 (.inf false) = .ok 0xFFFFFFFF := by decide +kernel

end Midi.Fp
