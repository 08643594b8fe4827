import Verif.Lemmas.Bits
import Verif.Model.Types

/-!
# Properties C07 and C08: saturating arithmetic, pitch bend times sensitivity
-/

namespace Midi

/-- The mathematical saturation of `x` to the range `lo .. hi`. -/
def saturate (x lo hi : Int) : Int := max lo (min hi x)

theorem clampInt_eq (x lo hi : Int) (h : lo ≤ hi) : clampInt x lo hi = saturate x lo hi := by
  unfold clampInt saturate; split <;> (try split) <;> omega

theorem chk64_ok {x : Int} (h1 : -2 ^ 63 ≤ x) (h2 : x < 2 ^ 63) : chk64 x = .ok x := by
  simp only [chk64, if_pos (And.intro h1 h2)]

theorem word_toInt_bounds (w : Word) : -2 ^ 31 ≤ w.toInt ∧ w.toInt < 2 ^ 31 := by
  have h := w.isLt
  rw [BitVec.toInt_eq_toNat_cond]
  split <;> omega

theorem toNat_ofInt_range {x : Int} (h1 : 0 ≤ x) (h2 : x < 2 ^ 32) : ((BitVec.ofInt 32 x).toNat : Int) = x := by
  rw [BitVec.toNat_ofInt]
  omega

theorem toInt_ofInt_range {x : Int} (h1 : -2 ^ 31 ≤ x) (h2 : x < 2 ^ 31) : (BitVec.ofInt 32 x).toInt = x := by
  rw [BitVec.toInt_ofInt]
  simp only [Int.bmod_def]
  omega

/-! ## C07 -/

/-- C07: adding an increment to a controller value gives the exact sum saturated to 0 .. 0xFFFFFFFF, for all values. -/
theorem C07_controller_add (v inc : Word) :
    ∃ r, controllerAdd v inc = .ok r ∧ (r.toNat : Int) = saturate (v.toNat + inc.toInt) 0 (2 ^ 32 - 1) := by
  have hv := v.isLt
  have hi := word_toInt_bounds inc
  unfold controllerAdd
  rw [chk64_ok (by omega) (by omega)]
  simp only [ok_bind]
  split
  · exact ⟨_, rfl, by simp [saturate]; omega⟩
  · split
    · exact ⟨_, rfl, by simp [saturate]; omega⟩
    · refine ⟨_, rfl, ?_⟩
      rw [toNat_ofInt_range (by omega) (by omega)]
      unfold saturate; omega

/-- C07: adding an increment to a pitch gives the exact sum saturated to 0 .. 0xFFFFFFFF, for all values. -/
theorem C07_pitch_add (p inc : Word) :
    ∃ r, pitch725Add p inc = .ok r ∧ (r.toNat : Int) = saturate (p.toNat + inc.toInt) 0 (2 ^ 32 - 1) := by
  have hv := p.isLt
  have hi := word_toInt_bounds inc
  unfold pitch725Add
  rw [chk64_ok (by omega) (by omega)]
  refine ⟨_, rfl, ?_⟩
  rw [clampInt_eq _ _ _ (by decide)]
  rw [toNat_ofInt_range]
  · rfl
  · unfold saturate uint32Max; omega
  · unfold saturate uint32Max; omega

/-- C07: adding pitch increments gives the exact sum saturated to the range of `int32_t`, for all values. -/
theorem C07_increment_add (a b : Word) :
    ∃ r, pitchIncAdd a b = .ok r ∧ r.toInt = saturate (a.toInt + b.toInt) (-2 ^ 31) (2 ^ 31 - 1) := by
  have ha := word_toInt_bounds a
  have hb := word_toInt_bounds b
  unfold pitchIncAdd
  rw [chk64_ok (by omega) (by omega)]
  refine ⟨_, rfl, ?_⟩
  rw [clampInt_eq _ _ _ (by decide)]
  rw [toInt_ofInt_range]
  · rfl
  · unfold saturate int32Min int32Max; omega
  · unfold saturate int32Min int32Max; omega

/-- C07: controller addition is monotone in both arguments. -/
theorem C07_controller_add_monotone (v v' inc inc' : Word) (hv : v ≤ v') (hi : inc.toInt ≤ inc'.toInt) :
    ∃ r r', controllerAdd v inc = .ok r ∧ controllerAdd v' inc' = .ok r' ∧ r ≤ r' := by
  obtain ⟨r, hr, e⟩ := C07_controller_add v inc
  obtain ⟨r', hr', e'⟩ := C07_controller_add v' inc'
  refine ⟨r, r', hr, hr', ?_⟩
  rw [BitVec.le_def] at *
  unfold saturate at *
  omega

example := C07_controller_add_monotone 0x80000000 0xC0000000 0xFFFFFFFF 0x60000000 (by decide) (by decide)

/-- C07: pitch addition is monotone in both arguments. -/
theorem C07_pitch_add_monotone (p p' inc inc' : Word) (hp : p ≤ p') (hi : inc.toInt ≤ inc'.toInt) :
    ∃ r r', pitch725Add p inc = .ok r ∧ pitch725Add p' inc' = .ok r' ∧ r ≤ r' := by
  obtain ⟨r, hr, e⟩ := C07_pitch_add p inc
  obtain ⟨r', hr', e'⟩ := C07_pitch_add p' inc'
  refine ⟨r, r', hr, hr', ?_⟩
  rw [BitVec.le_def] at *
  unfold saturate at *
  omega

/-- C07: adding increments is commutative and has 0 as neutral element. -/
theorem C07_increment_add_laws (a b : Word) :
    pitchIncAdd a b = pitchIncAdd b a ∧ pitchIncAdd a 0 = .ok a := by
  constructor
  · unfold pitchIncAdd; rw [Int.add_comm]
  · obtain ⟨r, hr, e⟩ := C07_increment_add a 0
    rw [hr]; congr 1
    apply BitVec.eq_of_toInt_eq
    have ha := word_toInt_bounds a
    simp [saturate] at e
    omega

example : controllerAdd 0xFFFFFFF0 0x7FFFFFFF = .ok 0xFFFFFFFF ∧ controllerAdd 5 (BitVec.ofInt 32 (-6)) = .ok 0 ∧
    pitchIncAdd 0x7FFFFFFF 1 = .ok 0x7FFFFFFF := by decide +kernel

/-! ## C08 -/

/-- The product of a pitch bend (as signed offset from the centre) and a sensitivity in 2^-31 units, rounded toward
zero. -/
def specBend (pb sens : Nat) : Int := Int.tdiv (((pb : Int) - 2 ^ 31) * sens) (2 ^ 31)

theorem bend_product_bounds (k s : Int) (hk1 : -2 ^ 31 ≤ k) (hk2 : k ≤ 2 ^ 31 - 1) (hs1 : 0 ≤ s) :
    -2 ^ 31 * s ≤ k * s ∧ k * s ≤ (2 ^ 31 - 1) * s :=
  ⟨Int.mul_le_mul_of_nonneg_right hk1 hs1, Int.mul_le_mul_of_nonneg_right hk2 hs1⟩

theorem tdiv_cases (a b : Int) : a.tdiv b = if 0 ≤ a then a / b else -((-a) / b) := by
  split
  · next h => rw [Int.tdiv_eq_ediv_of_nonneg h]
  · next h =>
    have : a = -(-a) := by omega
    rw [this, Int.neg_tdiv, Int.tdiv_eq_ediv_of_nonneg (by omega)]
    simp

/-- C08: the product never overflows and equals the mathematical value, rounded toward zero and saturated to
`int32_t`, for all pitch bends and sensitivities. -/
theorem C08_bend_exact (pb sens : Word) :
    ∃ r, bendTimesSensitivity pb sens = .ok r ∧
      r.toInt = saturate (specBend pb.toNat sens.toNat) (-2 ^ 31) (2 ^ 31 - 1) := by
  have hp := pb.isLt
  have hs := sens.isLt
  have hb := bend_product_bounds ((pb.toNat : Int) - 2 ^ 31) sens.toNat (by omega) (by omega) (by omega)
  unfold bendTimesSensitivity specBend
  rw [chk64_ok (by omega) (by omega)]
  simp only [ok_bind]
  have e31 : (0x80000000 : Int) = 2 ^ 31 := by decide
  split
  · next hne =>
    rw [e31, chk64_ok (by omega) (by omega)]
    simp only [ok_bind]
    generalize ((pb.toNat : Int) - 2 ^ 31) * sens.toNat = P at hb
    rw [tdiv_cases]
    rw [chk64_ok (by split <;> omega) (by split <;> omega)]
    refine ⟨_, rfl, ?_⟩
    rw [clampInt_eq _ _ _ (by decide), toInt_ofInt_range]
    · rfl
    · unfold saturate int32Min int32Max; omega
    · unfold saturate int32Min int32Max; omega
  · next heq =>
    refine ⟨_, rfl, ?_⟩
    have h0 : (pb.toNat : Int) - 2 ^ 31 = 0 := by
      rw [← e31]; simpa using heq
    rw [h0]
    simp [saturate]

/-- C08: a centred pitch bend yields no pitch offset. -/
theorem C08_bend_center (sens : Word) : bendTimesSensitivity 0x80000000 sens = .ok 0 := by
  obtain ⟨r, hr, e⟩ := C08_bend_exact 0x80000000 sens
  rw [hr]; congr 1
  apply BitVec.eq_of_toInt_eq
  rw [e]; simp [specBend, saturate]

/-- C08: the offset never exceeds the sensitivity in magnitude, and lies on the side of the bend. -/
theorem C08_bend_bounded (pb sens : Word) :
    ∃ r, bendTimesSensitivity pb sens = .ok r ∧ -(sens.toNat : Int) ≤ r.toInt ∧ r.toInt ≤ sens.toNat ∧
      (pb.toNat < 2 ^ 31 → r.toInt ≤ 0) ∧ (2 ^ 31 ≤ pb.toNat → 0 ≤ r.toInt) := by
  obtain ⟨r, hr, e⟩ := C08_bend_exact pb sens
  refine ⟨r, hr, ?_⟩
  have hp := pb.isLt
  have hs := sens.isLt
  have hb := bend_product_bounds ((pb.toNat : Int) - 2 ^ 31) sens.toNat (by omega) (by omega) (by omega)
  have hpos : 2 ^ 31 ≤ pb.toNat → 0 ≤ ((pb.toNat : Int) - 2 ^ 31) * sens.toNat :=
    fun h => Int.mul_nonneg (by omega) (by omega)
  have hneg : pb.toNat < 2 ^ 31 → ((pb.toNat : Int) - 2 ^ 31) * sens.toNat ≤ 0 :=
    fun h => Int.mul_nonpos_of_nonpos_of_nonneg (by omega) (by omega)
  unfold specBend saturate at e
  generalize ((pb.toNat : Int) - 2 ^ 31) * sens.toNat = P at *
  rw [tdiv_cases] at e
  split at e <;> omega

/-- C08: bending down fully yields exactly the negated sensitivity (saturated to `int32_t`). -/
theorem C08_bend_full_down (sens : Word) :
    ∃ r, bendTimesSensitivity 0 sens = .ok r ∧ r.toInt = max (-2 ^ 31) (-(sens.toNat : Int)) := by
  obtain ⟨r, hr, e⟩ := C08_bend_exact 0 sens
  refine ⟨r, hr, ?_⟩
  have hs := sens.isLt
  unfold specBend saturate at e
  rw [tdiv_cases] at e
  simp only [BitVec.ofNat_eq_ofNat, BitVec.toNat_ofNat, Nat.zero_mod] at e
  split at e <;> omega

/-- C08: the offset is a monotone function of the pitch bend. -/
theorem C08_bend_monotone (pb pb' sens : Word) (h : pb ≤ pb') :
    ∃ r r', bendTimesSensitivity pb sens = .ok r ∧ bendTimesSensitivity pb' sens = .ok r' ∧ r.toInt ≤ r'.toInt := by
  obtain ⟨r, hr, e⟩ := C08_bend_exact pb sens
  obtain ⟨r', hr', e'⟩ := C08_bend_exact pb' sens
  refine ⟨r, r', hr, hr', ?_⟩
  rw [BitVec.le_def] at h
  have hm : ((pb.toNat : Int) - 2 ^ 31) * sens.toNat ≤ ((pb'.toNat : Int) - 2 ^ 31) * sens.toNat :=
    Int.mul_le_mul_of_nonneg_right (by omega) (by omega)
  unfold specBend saturate at e e'
  generalize ((pb.toNat : Int) - 2 ^ 31) * sens.toNat = P at *
  generalize ((pb'.toNat : Int) - 2 ^ 31) * sens.toNat = Q at *
  rw [tdiv_cases] at e e'
  split at e <;> split at e' <;> omega

/-- C08: equal bends up and down yield opposite offsets, for sensitivities up to 64 semitones (those whose offset fits
`int32_t` on both sides). -/
theorem C08_bend_antisymmetric (k : Nat) (hk1 : 1 ≤ k) (hk2 : k < 2 ^ 31) (sens : Word) (hs : sens.toNat ≤ 2 ^ 31) :
    ∃ up down, bendTimesSensitivity (BitVec.ofNat 32 (2 ^ 31 + k)) sens = .ok up ∧
      bendTimesSensitivity (BitVec.ofNat 32 (2 ^ 31 - k)) sens = .ok down ∧ up.toInt = -down.toInt := by
  obtain ⟨r, hr, e⟩ := C08_bend_exact (BitVec.ofNat 32 (2 ^ 31 + k)) sens
  obtain ⟨r', hr', e'⟩ := C08_bend_exact (BitVec.ofNat 32 (2 ^ 31 - k)) sens
  refine ⟨r, r', hr, hr', ?_⟩
  have n1 : (BitVec.ofNat 32 (2 ^ 31 + k)).toNat = 2 ^ 31 + k := by
    rw [BitVec.toNat_ofNat, Nat.mod_eq_of_lt (by omega)]
  have n2 : (BitVec.ofNat 32 (2 ^ 31 - k)).toNat = 2 ^ 31 - k := by
    rw [BitVec.toNat_ofNat, Nat.mod_eq_of_lt (by omega)]
  rw [n1] at e
  rw [n2] at e'
  have k1 : (((2 ^ 31 + k : Nat) : Int) - 2 ^ 31) * sens.toNat = (k : Int) * sens.toNat := by
    congr 1; omega
  have k2 : (((2 ^ 31 - k : Nat) : Int) - 2 ^ 31) * sens.toNat = -((k : Int) * sens.toNat) := by
    rw [← Int.neg_mul]; congr 1; omega
  unfold specBend saturate at e e'
  rw [k1] at e
  rw [k2] at e'
  have hb := bend_product_bounds k sens.toNat (by omega) (by omega) (by omega)
  have hnn : 0 ≤ (k : Int) * sens.toNat := Int.mul_nonneg (by omega) (by omega)
  generalize (k : Int) * sens.toNat = P at *
  rw [tdiv_cases] at e e'
  split at e <;> split at e' <;> omega

example : bendTimesSensitivity 0xFFFFFFFF 0x04000000 = .ok 0x03FFFFFF ∧
    bendTimesSensitivity 0 0xFFFFFFFF = .ok 0x80000000 := by decide +kernel

end Midi
