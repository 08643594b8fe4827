import Verif.Lemmas.FloatTrip

/-!
C50: conversions between MIDI values and floating point numbers. Arguments are arbitrary floating point numbers, including the
infinities; `Spec.Fp.IsFloat` and `Spec.Fp.IsDouble` say which rational numbers are values of `float` and `double`.
-/

namespace Midi.Fp

open Flt Spec.Fp

/-- The rounding of the model is the one of IEEE 754: a finite result is a `float` (a `double`), and no other one is nearer to
the exact result. -/
theorem C50_rounding (x r : ℚ) :
    (ofRat single x = fin r → IsFloat r ∧ ∀ q, IsFloat q → |r - x| ≤ |q - x|) ∧
    (ofRat double x = fin r → IsDouble r ∧ ∀ q, IsDouble q → |r - x| ≤ |q - x|) := by
  have key : ∀ F : Fmt, 0 < F.prec → ofRat F x = fin r → (Rep F r ∧ |r| < 2 ^ F.emax) ∧ ∀ q, Rep F q → |r - x| ≤ |q - x| := by
    intro F hp h
    unfold ofRat at h
    split at h
    · cases h
    · split at h
      · cases h
      · injection h with h
        subst h
        refine ⟨⟨rep_round hp x, abs_lt.2 ⟨by linarith, by linarith⟩⟩, fun q hq => round_nearest hp x q hq⟩
  exact ⟨fun h => ⟨(key single (by decide) h).1, fun q hq => (key single (by decide) h).2 q hq.1⟩,
    fun h => ⟨(key double (by decide) h).1, fun q hq => (key double (by decide) h).2 q hq.1⟩⟩

-- 1/3 is rounded
example : ofRat single (1 / 3) = fin (11184811 / 33554432) := by decide +kernel
example : ofRat double (2 ^ 53 + 1) = fin (2 ^ 53) := by decide +kernel

/-- C50: the conversion of a `float` or `double` to a velocity is defined for all numbers including the infinities, clamps to
the range, and maps 0.5 to the centre. -/
theorem C50_velocity_defined (f : Flt) (hf : f ≠ .nan) :
    ∃ v, velocityOf f = .ok v ∧ (f.le (fin 0) → v = 0) ∧ ((fin 1).le f → v = 0xFFFF) ∧ (f = fin (1 / 2) → v = 0x8000) := by
  obtain ⟨v, h1, h2⟩ := fromFloat01_toNat (n := 16) (by decide) (by decide) hf
  refine ⟨v, h1, ?_, ?_, ?_⟩
  · intro h
    have a := fval_mono (K := 2 ^ 15) (by decide) (by decide) h
    have b := (fval_range (K := 2 ^ 15) (by decide) (by decide) f).1
    have : fval (2 ^ 15) (fin 0) = 0 := by decide +kernel
    apply BitVec.eq_of_toNat_eq
    show v.toNat = 0
    simp only [show 16 - 1 = 15 from rfl] at h2
    omega
  · intro h
    have a := fval_mono (K := 2 ^ 15) (by decide) (by decide) h
    have b := (fval_range (K := 2 ^ 15) (by decide) (by decide) f).2
    have : fval (2 ^ 15) (fin 1) = 65535 := by decide +kernel
    apply BitVec.eq_of_toNat_eq
    show v.toNat = 65535
    simp only [show 16 - 1 = 15 from rfl] at h2
    omega
  · rintro rfl
    have : fval (2 ^ 15) (fin (1 / 2)) = 32768 := by decide +kernel
    apply BitVec.eq_of_toNat_eq
    show v.toNat = 32768
    simp only [show 16 - 1 = 15 from rfl] at h2
    omega

example := C50_velocity_defined (.inf false) (by decide)

/-- C50: the conversion of a `float` or `double` to a velocity is monotone. -/
theorem C50_velocity_monotone (f g : Flt) (v w : U16) (h : f.le g) (hv : velocityOf f = .ok v) (hw : velocityOf g = .ok w) :
    v ≤ w := by
  have hf : f ≠ .nan := by rintro rfl; cases h
  have hg : g ≠ .nan := by rintro rfl; cases f <;> first | cases h | (rename_i s; cases s <;> cases h)
  obtain ⟨v', h1, h2⟩ := fromFloat01_toNat (n := 16) (by decide) (by decide) hf
  obtain ⟨w', h3, h4⟩ := fromFloat01_toNat (n := 16) (by decide) (by decide) hg
  cases hv.symm.trans h1
  cases hw.symm.trans h3
  have := fval_mono (K := 2 ^ 15) (by decide) (by decide) h
  simp only [show 16 - 1 = 15 from rfl] at h2 h4
  rw [BitVec.le_def]
  omega

example := C50_velocity_monotone (fin (1 / 2)) (fin (3 / 4)) 0x8000 0xBFFF (by decide +kernel) (by decide +kernel) (by decide +kernel)

/-- C50: a velocity is converted to a number between 0 and 1, order is preserved, and minimum, centre and maximum are converted
to 0, 0.5 and 1. -/
theorem C50_velocity_as (F : Fmt) (hF : F = single ∨ F = double) :
    (∀ v : U16, ∃ q, velocityAs F v = fin q ∧ 0 ≤ q ∧ q ≤ 1) ∧
    (∀ v w : U16, v ≤ w → (velocityAs F v).le (velocityAs F w)) ∧
    velocityAs F 0 = fin 0 ∧ velocityAs F 0x8000 = fin (1 / 2) ∧ velocityAs F 0xFFFF = fin 1 := by
  have e := fun v : U16 => (toFloat01_eq hF (n := 16) (by decide) (by decide) v).1
  refine ⟨fun v => ⟨_, e v, tval_range hF (by decide) v.isLt⟩, fun v w h => ?_, ?_, ?_, ?_⟩
  · unfold velocityAs
    rw [e v, e w, le_fin]
    exact decide_eq_true (tval_mono hF (by decide) (BitVec.le_def.1 h))
  · unfold velocityAs; rw [e]; exact congrArg fin tval_zero
  · unfold velocityAs; rw [e]; exact congrArg fin (tval_mid hF (K := 2 ^ 15) (by decide))
  · unfold velocityAs; rw [e]; exact congrArg fin (tval_max hF (K := 2 ^ 15) (by decide))

example := C50_velocity_as single (Or.inl rfl)

/-- C50: a velocity converted to `double` or `float` and back is the same velocity. -/
theorem C50_velocity_round_trip (v : U16) :
    velocityOf (velocityAs double v) = .ok v ∧ velocityOf (velocityAs single v) = .ok v := by
  have key : ∀ F : Fmt, F = double ∨ F = single → velocityOf (velocityAs F v) = .ok v := by
    intro F hF
    obtain ⟨e, hr⟩ := toFloat01_eq (Or.symm hF) (n := 16) (by decide) (by decide) v
    unfold velocityAs
    rw [e]
    have := trip hF (K := 2 ^ 15) (v := v.toNat) (by decide) (by decide) (fun _ => by decide) v.isLt hr ?_
    · unfold velocityOf
      rw [fromFloat01_fin (by decide) (by decide)]
      simp only [show 16 - 1 = 15 from rfl]
      rw [this, BitVec.ofInt_natCast, BitVec.ofNat_toNat, BitVec.setWidth_eq]
    · intro _ _
      have hlt := v.isLt
      have h : |(v.toNat : ℤ)| < 2 ^ single.prec := by
        rw [abs_of_nonneg (by omega)]
        show (v.toNat : ℤ) < 2 ^ 24
        omega
      have := rep_div (F := single) 16 (by decide) v.toNat h
      convert this using 1
      norm_num
  exact ⟨key _ (Or.inl rfl), key _ (Or.inr rfl)⟩

/-- C50: the conversion of a `float` or `double` to a controller value is defined for all numbers including the infinities,
clamps to the range, and maps 0.5 to the centre. -/
theorem C50_controller_defined (f : Flt) (hf : f ≠ .nan) :
    ∃ v, controllerOf f = .ok v ∧ (f.le (fin 0) → v = 0) ∧ ((fin 1).le f → v = 0xFFFFFFFF) ∧
      (f = fin (1 / 2) → v = 0x80000000) := by
  obtain ⟨v, h1, h2⟩ := fromFloat01_toNat (n := 32) (by decide) (by decide) hf
  refine ⟨v, h1, ?_, ?_, ?_⟩
  · intro h
    have a := fval_mono (K := 2 ^ 31) (by decide) (by decide) h
    have b := (fval_range (K := 2 ^ 31) (by decide) (by decide) f).1
    have : fval (2 ^ 31) (fin 0) = 0 := by decide +kernel
    apply BitVec.eq_of_toNat_eq
    show v.toNat = 0
    simp only [show 32 - 1 = 31 from rfl] at h2
    omega
  · intro h
    have a := fval_mono (K := 2 ^ 31) (by decide) (by decide) h
    have b := (fval_range (K := 2 ^ 31) (by decide) (by decide) f).2
    have : fval (2 ^ 31) (fin 1) = 4294967295 := by decide +kernel
    apply BitVec.eq_of_toNat_eq
    show v.toNat = 4294967295
    simp only [show 32 - 1 = 31 from rfl] at h2
    omega
  · rintro rfl
    have : fval (2 ^ 31) (fin (1 / 2)) = 2147483648 := by decide +kernel
    apply BitVec.eq_of_toNat_eq
    show v.toNat = 2147483648
    simp only [show 32 - 1 = 31 from rfl] at h2
    omega

example := C50_controller_defined (.inf false) (by decide)

/-- C50: the conversion of a `float` or `double` to a controller value is monotone. -/
theorem C50_controller_monotone (f g : Flt) (v w : Word) (h : f.le g) (hv : controllerOf f = .ok v)
    (hw : controllerOf g = .ok w) : v ≤ w := by
  have hf : f ≠ .nan := by rintro rfl; cases h
  have hg : g ≠ .nan := by rintro rfl; cases f <;> first | cases h | (rename_i s; cases s <;> cases h)
  obtain ⟨v', h1, h2⟩ := fromFloat01_toNat (n := 32) (by decide) (by decide) hf
  obtain ⟨w', h3, h4⟩ := fromFloat01_toNat (n := 32) (by decide) (by decide) hg
  cases hv.symm.trans h1
  cases hw.symm.trans h3
  have := fval_mono (K := 2 ^ 31) (by decide) (by decide) h
  simp only [show 32 - 1 = 31 from rfl] at h2 h4
  rw [BitVec.le_def]
  omega

example := C50_controller_monotone (fin (1 / 2)) (.inf false) 0x80000000 0xFFFFFFFF (by decide +kernel) (by decide +kernel) (by decide +kernel)

/-- C50: a controller value is converted to a number between 0 and 1, order is preserved, and minimum, centre and maximum are
converted to 0, 0.5 and 1. -/
theorem C50_controller_as (F : Fmt) (hF : F = single ∨ F = double) :
    (∀ v : Word, ∃ q, controllerAs F v = fin q ∧ 0 ≤ q ∧ q ≤ 1) ∧
    (∀ v w : Word, v ≤ w → (controllerAs F v).le (controllerAs F w)) ∧
    controllerAs F 0 = fin 0 ∧ controllerAs F 0x80000000 = fin (1 / 2) ∧ controllerAs F 0xFFFFFFFF = fin 1 := by
  have e := fun v : Word => (toFloat01_eq hF (n := 32) (by decide) (by decide) v).1
  refine ⟨fun v => ⟨_, e v, tval_range hF (by decide) v.isLt⟩, fun v w h => ?_, ?_, ?_, ?_⟩
  · unfold controllerAs
    rw [e v, e w, le_fin]
    exact decide_eq_true (tval_mono hF (by decide) (BitVec.le_def.1 h))
  · unfold controllerAs; rw [e]; exact congrArg fin tval_zero
  · unfold controllerAs; rw [e]; exact congrArg fin (tval_mid hF (K := 2 ^ 31) (by decide))
  · unfold controllerAs; rw [e]; exact congrArg fin (tval_max hF (K := 2 ^ 31) (by decide))

example := C50_controller_as single (Or.inl rfl)

/-- C50: a controller value converted to `double` and back is the same value. -/
theorem C50_controller_round_trip (v : Word) : controllerOf (controllerAs double v) = .ok v := by
  obtain ⟨e, hr⟩ := toFloat01_eq (Or.inr rfl : double = single ∨ double = double) (n := 32) (by decide) (by decide) v
  unfold controllerAs
  rw [e]
  have := trip (Or.inl rfl : double = double ∨ double = single) (K := 2 ^ 31) (v := v.toNat) (by decide) (by decide)
    (fun h => absurd h (by decide)) v.isLt hr (fun h => absurd h (by decide))
  unfold controllerOf
  rw [fromFloat01_fin (by decide) (by decide)]
  simp only [show 32 - 1 = 31 from rfl]
  rw [this, BitVec.ofInt_natCast, BitVec.ofNat_toNat, BitVec.setWidth_eq]

/-- C50: `float` is not precise enough for controller values. -/
theorem C50_controller_float_differs : controllerOf (controllerAs single 0x80000001) = .ok 0x80000000 := by decide +kernel

/-- C50: the conversion of NaN is undefined behaviour. -/
theorem C50_nan : velocityOf .nan = .error .badFloatCast ∧ controllerOf .nan = .error .badFloatCast ∧
    (∀ F, pitchBendOf F .nan = .error .badFloatCast) := ⟨rfl, rfl, fun _ => rfl⟩

-- 0.75 is not converted to 3/4 of the range
example : velocityOf (fin (3 / 4)) = .ok 0xBFFF ∧ velocityAs double 0xBFFF = fin (844420635099135 / 1125899906842624) := by
  decide +kernel

end Midi.Fp
