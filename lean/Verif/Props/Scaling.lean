import Verif.Lemmas.Scaling

/-!
# Properties C05 and C06: scaling between bit depths
-/

namespace Midi

/-! ## C05: the general scaling function -/

/-- The scaling scheme of the MIDI 2.0 bit scaling specification (M2-115-U, "min-center-max"), bit by bit: the upper
`x` of the `y` result bits are the value; the lower `y - x` bits are zero up to the centre `2^(x-1)`, and repeat the
lower `x - 1` bits of the value, most significant first, above the centre. -/
def specScaledBit (v x y i : Nat) : Bool :=
  if i ≥ y - x then v.testBit (i - (y - x))
  else if v ≤ 2 ^ (x - 1) then false
  else v.testBit ((x - 1) - 1 - (y - x - 1 - i) % (x - 1))

theorem testBit_high {v i n : Nat} (h : v < 2 ^ n) (hi : n ≤ i) : v.testBit i = false := by
  apply Nat.testBit_lt_two_pow
  exact Nat.lt_of_lt_of_le h (Nat.pow_le_pow_right (by omega) hi)

/-- C05: for all depths `1 < x < y ≤ 32` and all values, the result is bit for bit the one of the specified scheme. -/
theorem C05_scaling_scheme (v : Word) (x y : Nat) (h1 : 1 < x) (h2 : x < y) (h3 : y ≤ 32) (hv : v.toNat < 2 ^ x) :
    ∃ r, upsampleXtoY v x y = .ok r ∧ ∀ i, r.toNat.testBit i = specScaledBit v.toNat x y i := by
  refine ⟨_, upsampleXtoY_ok v x y h1 h2 h3, fun i => ?_⟩
  unfold upsampleVal specScaledBit
  have hc := le_center_iff v x (by omega)
  by_cases hle : v.toNat ≤ 2 ^ (x - 1)
  · simp only [hc.2 hle, hle, if_true]
    rw [BitVec.testBit_toNat, BitVec.getLsbD_shiftLeft]
    by_cases hi : i < y - x
    · have : ¬ y - x ≤ i := by omega
      simp [hi, this]
    · have h' : y - x ≤ i := by omega
      simp only [ge_iff_le, h', if_true, hi, decide_false, Bool.not_false, Bool.and_true, BitVec.testBit_toNat]
      by_cases h32 : i < 32
      · simp [h32]
      · have : v.getLsbD (i - (y - x)) = false := by
          rw [← BitVec.testBit_toNat]; exact testBit_high hv (by omega)
        simp [h32, this]
  · have hn : ¬ v ≤ (1 : Word) <<< (x - 1) := fun h => hle (hc.1 h)
    simp only [hn, hle, if_false]
    rw [BitVec.testBit_toNat, upsample_bit_above v x y i h1 h2 h3]
    by_cases hi : i < y - x
    · have h' : ¬ y - x ≤ i := by omega
      simp only [hi, if_true, ge_iff_le, h', if_false, BitVec.testBit_toNat]
      rfl
    · have h' : y - x ≤ i := by omega
      simp only [hi, if_false, ge_iff_le, h', if_true, BitVec.testBit_toNat]
      by_cases h32 : i < 32
      · simp [h32]
      · have : v.getLsbD (i - (y - x)) = false := by
          rw [← BitVec.testBit_toNat]; exact testBit_high hv (by omega)
        simp [h32, this]

example := C05_scaling_scheme 0x5A 7 16 (by decide) (by decide) (by decide) (by decide)

/-- C05: the scaled value fits into `y` bits, and shifting it down by `y - x` gives the original value. -/
theorem C05_shift_back (v : Word) (x y : Nat) (h1 : 1 < x) (h2 : x < y) (h3 : y ≤ 32) (hv : v.toNat < 2 ^ x) :
    ∃ r, upsampleXtoY v x y = .ok r ∧ r.toNat < 2 ^ y ∧ (r >>> (y - x)) = v := by
  obtain ⟨r, hr, hbit⟩ := C05_scaling_scheme v x y h1 h2 h3 hv
  have hshift : r.toNat >>> (y - x) = v.toNat := by
    apply Nat.eq_of_testBit_eq
    intro i
    rw [Nat.testBit_shiftRight, hbit, specScaledBit]
    simp
  refine ⟨r, hr, ?_, ?_⟩
  · rw [Nat.shiftRight_eq_div_pow] at hshift
    have : r.toNat / 2 ^ (y - x) < 2 ^ x := by omega
    have := (Nat.div_lt_iff_lt_mul (Nat.two_pow_pos _)).1 this
    rwa [← Nat.pow_add, show x + (y - x) = y by omega] at this
  · apply BitVec.eq_of_toNat_eq
    rw [BitVec.toNat_ushiftRight, hshift]

example := C05_shift_back 0x5A 7 16 (by decide) (by decide) (by decide) (by decide)

/-- C05: scaling up is strictly increasing. -/
theorem C05_strictly_increasing (v v' : Word) (x y : Nat) (h1 : 1 < x) (h2 : x < y) (h3 : y ≤ 32)
    (hv' : v'.toNat < 2 ^ x) (hlt : v < v') :
    ∃ r r', upsampleXtoY v x y = .ok r ∧ upsampleXtoY v' x y = .ok r' ∧ r < r' := by
  rw [BitVec.lt_def] at hlt
  obtain ⟨r, hr, _, hs⟩ := C05_shift_back v x y h1 h2 h3 (by omega)
  obtain ⟨r', hr', _, hs'⟩ := C05_shift_back v' x y h1 h2 h3 hv'
  refine ⟨r, r', hr, hr', ?_⟩
  rw [BitVec.lt_def]
  by_contra hge
  have : r'.toNat / 2 ^ (y - x) ≤ r.toNat / 2 ^ (y - x) := Nat.div_le_div_right (by omega)
  have e1 := congrArg BitVec.toNat hs
  have e2 := congrArg BitVec.toNat hs'
  rw [BitVec.toNat_ushiftRight, Nat.shiftRight_eq_div_pow] at e1 e2
  omega

example := C05_strictly_increasing 0x5A 0x5B 7 16 (by decide) (by decide) (by decide) (by decide) (by decide)

/-- C05: minimum, centre and maximum of the source depth are mapped onto minimum, centre and maximum of the target. -/
theorem C05_fixed_points (x y : Nat) (h1 : 1 < x) (h2 : x < y) (h3 : y ≤ 32) :
    upsampleXtoY 0 x y = .ok 0 ∧
    upsampleXtoY (BitVec.ofNat 32 (2 ^ (x - 1))) x y = .ok (BitVec.ofNat 32 (2 ^ (y - 1))) ∧
    upsampleXtoY (BitVec.ofNat 32 (2 ^ x - 1)) x y = .ok (BitVec.ofNat 32 (2 ^ y - 1)) := by
  have hx32 : 2 ^ x < 2 ^ 32 := Nat.pow_lt_pow_right (by omega) (by omega)
  have hx1 : 2 ^ x = 2 * 2 ^ (x - 1) := by
    rw [← Nat.pow_succ']; congr 1; omega
  have hx2 : 2 ≤ 2 ^ (x - 1) := by
    calc 2 = 2 ^ 1 := rfl
      _ ≤ 2 ^ (x - 1) := Nat.pow_le_pow_right (by omega) (by omega)
  have hy1 : 2 ^ (y - 1) = 2 ^ (x - 1) * 2 ^ (y - x) := by
    rw [← Nat.pow_add]; congr 1; omega
  have hy32 : 2 ^ (y - 1) < 2 ^ 32 := Nat.pow_lt_pow_right (by omega) (by omega)
  have hy32' : 2 ^ y ≤ 2 ^ 32 := Nat.pow_le_pow_right (by omega) (by omega)
  have hy0 : 1 ≤ 2 ^ y := Nat.one_le_two_pow
  refine ⟨?_, ?_, ?_⟩
  · obtain ⟨r, hr, hbit⟩ := C05_scaling_scheme 0 x y h1 h2 h3 (by simp)
    rw [hr]; congr 1
    apply BitVec.eq_of_toNat_eq
    apply Nat.eq_of_testBit_eq
    intro i
    rw [hbit]; simp [specScaledBit]
  · have hvn : (BitVec.ofNat 32 (2 ^ (x - 1))).toNat = 2 ^ (x - 1) := by
      rw [BitVec.toNat_ofNat, Nat.mod_eq_of_lt (by omega)]
    obtain ⟨r, hr, hbit⟩ := C05_scaling_scheme (BitVec.ofNat 32 (2 ^ (x - 1))) x y h1 h2 h3 (by rw [hvn]; omega)
    rw [hr]; congr 1
    apply BitVec.eq_of_toNat_eq
    apply Nat.eq_of_testBit_eq
    intro i
    rw [hbit, hvn, BitVec.toNat_ofNat, Nat.mod_eq_of_lt hy32]
    unfold specScaledBit
    simp only [Nat.le_refl, if_true, Nat.testBit_two_pow]
    by_cases hi : y - x ≤ i
    · simp only [ge_iff_le, hi, if_true]
      congr 1
      apply propext; omega
    · simp only [ge_iff_le, hi, if_false]
      symm; rw [decide_eq_false_iff_not]; omega
  · have hvn : (BitVec.ofNat 32 (2 ^ x - 1)).toNat = 2 ^ x - 1 := by
      rw [BitVec.toNat_ofNat, Nat.mod_eq_of_lt (by omega)]
    obtain ⟨r, hr, hbit⟩ := C05_scaling_scheme (BitVec.ofNat 32 (2 ^ x - 1)) x y h1 h2 h3 (by rw [hvn]; omega)
    rw [hr]; congr 1
    apply BitVec.eq_of_toNat_eq
    apply Nat.eq_of_testBit_eq
    intro i
    rw [hbit, hvn, BitVec.toNat_ofNat, Nat.mod_eq_of_lt (by omega)]
    unfold specScaledBit
    have hgt : ¬ (2 ^ x - 1 ≤ 2 ^ (x - 1)) := by omega
    simp only [hgt, if_false, Nat.testBit_two_pow_sub_one]
    by_cases hi : y - x ≤ i
    · simp only [ge_iff_le, hi, if_true]
      congr 1
      apply propext; omega
    · simp only [ge_iff_le, hi, if_false]
      have hA : x - 1 - 1 - (y - x - 1 - i) % (x - 1) < x := by omega
      have hB : i < y := by omega
      simp [hA, hB]

/-- C05: depths outside of the documented range fail the assertion. -/
theorem C05_bad_depths (v : Word) (x y : Nat) (h : ¬ (1 < x ∧ x < y ∧ y ≤ 32)) :
    upsampleXtoY v x y = .error .assertFailed := upsampleXtoY_fail v x y h

example : upsampleXtoY 0x5A 7 16 = .ok 0xB4D3 ∧ (1 < 7 ∧ 7 < 16 ∧ 16 ≤ 32 ∧ (0x5A : Word).toNat < 2 ^ 7) := by
  decide +kernel

/-! ## C06: the fixed depth functions -/

theorem le_center (v : Word) (x : Nat) (hx : x - 1 < 32) (h : v.toNat ≤ 2 ^ (x - 1)) :
    v ≤ (1 : Word) <<< (x - 1) := (le_center_iff v x hx).2 h

/-- C06: `upsample_7_to_16bit` is the general scaling function for 7 and 16 bits. -/
theorem C06_7_to_16_is_general (v : Byte) (hv : v < 128) :
    upsampleXtoY (v.setWidth 32) 7 16 = .ok ((upsample7to16 v).setWidth 32) := by
  have : ∀ v : Byte, v < 128 → upsampleXtoY (v.setWidth 32) 7 16 = .ok ((upsample7to16 v).setWidth 32) := by
    decide +kernel
  exact this v hv

example := C06_7_to_16_is_general 0x5A (by decide)

/-- C06: `upsample_7_to_32bit` is the general scaling function for 7 and 32 bits. -/
theorem C06_7_to_32_is_general (v : Byte) (hv : v < 128) :
    upsampleXtoY (v.setWidth 32) 7 32 = .ok (upsample7to32 v) := by
  have : ∀ v : Byte, v < 128 → upsampleXtoY (v.setWidth 32) 7 32 = .ok (upsample7to32 v) := by
    decide +kernel
  exact this v hv

example := C06_7_to_32_is_general 0x5A (by decide)

theorem u16_high_bits {v : U16} (hv : v.toNat < 2 ^ 14) : v[14] = false ∧ v[15] = false := by
  have h : ∀ i (hi : i < 16), 14 ≤ i → v[i] = false := by
    intro i hi h14
    rw [← BitVec.getLsbD_eq_getElem, ← BitVec.testBit_toNat]
    exact testBit_high hv h14
  exact ⟨h 14 (by omega) (by omega), h 15 (by omega) (by omega)⟩

/-- C06: `upsample_14_to_32bit` is the general scaling function for 14 and 32 bits. -/
theorem C06_14_to_32_is_general (v : U16) (hv : v.toNat < 2 ^ 14) :
    upsampleXtoY (v.setWidth 32) 14 32 = upsample14to32 v := by
  have hn : (v.setWidth 32).toNat = v.toNat := by
    rw [BitVec.toNat_setWidth]; exact Nat.mod_eq_of_lt (by omega)
  obtain ⟨h14, h15⟩ := u16_high_bits hv
  rw [upsampleXtoY_ok _ _ _ (by omega) (by omega) (by omega)]
  unfold upsampleVal upsample14to32
  have hgt : v > 8192 ↔ ¬ (v.setWidth 32 ≤ (1 : Word) <<< (14 - 1)) := by
    rw [le_center_iff _ _ (by omega), hn, gt_iff_lt, BitVec.lt_def]
    simp
  rw [if_pos hv]
  by_cases hc : v > 8192
  · have hc' := hgt.1 hc
    simp only [hc, if_true, hc', if_false]
    congr 1
    refine BitVec.eq_of_getLsbD_eq ?_
    intro i hi
    rw [upsample_bit_above _ 14 32 i (by omega) (by omega) (by omega)]
    interval_cases i <;> simp [h14, h15]
  · have hc' : v.setWidth 32 ≤ (1 : Word) <<< (14 - 1) := by
      by_contra h; exact hc (hgt.2 h)
    simp only [hc, hc', if_true, if_false]

example := C06_14_to_32_is_general 0x2345 (by decide)

/-- C06: out of range input of the 14 bit version is undefined behaviour (a signed shift overflow). -/
theorem C06_14_to_32_out_of_range (v : U16) (hv : 2 ^ 14 ≤ v.toNat) : upsample14to32 v = .error .badShift := by
  unfold upsample14to32
  rw [if_neg (by omega)]

example := C06_14_to_32_out_of_range 0x4001 (by decide)

/-- C06: the down sampling functions undo the up sampling functions: `velocity`, `controller_value` and `pitch_bend`
made from 7 or 14 bit values read back the same 7 or 14 bit value. -/
theorem C06_round_trip_7 (v : Byte) (hv : v < 128) :
    velocityAs7 (velocityOf7 v) = v ∧ controllerAs7 (controllerOf7 v) = v := by
  have : ∀ v : Byte, v < 128 → velocityAs7 (velocityOf7 v) = v ∧ controllerAs7 (controllerOf7 v) = v := by
    decide +kernel
  exact this v hv

example := C06_round_trip_7 0x5A (by decide)

/-- C06: 14 bit values survive the way through `pitch_bend` and `controller_value`. -/
theorem C06_round_trip_14 (v : U16) (hv : v.toNat < 2 ^ 14) :
    ∃ r, pitchBendOf14 v = .ok r ∧ controllerOf14 v = .ok r ∧ pitchBendAs14 r = v ∧ controllerAs14 r = v := by
  have hn : (v.setWidth 32).toNat = v.toNat := by
    rw [BitVec.toNat_setWidth]; exact Nat.mod_eq_of_lt (by omega)
  obtain ⟨r, hr, _, hs⟩ := C05_shift_back (v.setWidth 32) 14 32 (by omega) (by omega) (by omega) (by omega)
  rw [C06_14_to_32_is_general v hv] at hr
  have hd : downsample32to14 r = v := by
    unfold downsample32to14
    rw [show (18 : Nat) = 32 - 14 from rfl, hs]
    apply BitVec.eq_of_toNat_eq
    rw [BitVec.toNat_setWidth, hn]; exact Nat.mod_eq_of_lt v.isLt
  exact ⟨r, hr, hr, hd, hd⟩

example := C06_round_trip_14 0x2345 (by decide)

/-- C06: the down sampling functions keep the most significant bits; the results stay in range. -/
theorem C06_downsample_values :
    (∀ v : U16, (downsample16to7 v).toNat = v.toNat / 2 ^ 9 ∧ (downsample16to7 v).toNat < 128) ∧
    (∀ v : Word, (downsample32to7 v).toNat = v.toNat / 2 ^ 25 ∧ (downsample32to7 v).toNat < 128) ∧
    (∀ v : Word, (downsample32to14 v).toNat = v.toNat / 2 ^ 18 ∧ (downsample32to14 v).toNat < 16384) := by
  refine ⟨fun v => ?_, fun v => ?_, fun v => ?_⟩
  · have := v.isLt
    simp only [downsample16to7, BitVec.toNat_setWidth, BitVec.toNat_ushiftRight, Nat.shiftRight_eq_div_pow]
    omega
  · have := v.isLt
    simp only [downsample32to7, BitVec.toNat_setWidth, BitVec.toNat_ushiftRight, Nat.shiftRight_eq_div_pow]
    omega
  · have := v.isLt
    simp only [downsample32to14, BitVec.toNat_setWidth, BitVec.toNat_ushiftRight, Nat.shiftRight_eq_div_pow]
    omega

/-- C06: the down sampling functions are monotone. -/
theorem C06_downsample_monotone :
    (∀ v w : U16, v ≤ w → downsample16to7 v ≤ downsample16to7 w) ∧
    (∀ v w : Word, v ≤ w → downsample32to7 v ≤ downsample32to7 w) ∧
    (∀ v w : Word, v ≤ w → downsample32to14 v ≤ downsample32to14 w) := by
  obtain ⟨h1, h2, h3⟩ := C06_downsample_values
  refine ⟨fun v w h => ?_, fun v w h => ?_, fun v w h => ?_⟩
  · rw [BitVec.le_def] at *; rw [(h1 v).1, (h1 w).1]; exact Nat.div_le_div_right h
  · rw [BitVec.le_def] at *; rw [(h2 v).1, (h2 w).1]; exact Nat.div_le_div_right h
  · rw [BitVec.le_def] at *; rw [(h3 v).1, (h3 w).1]; exact Nat.div_le_div_right h

/-- C06: note numbers survive the way through the pitch types; `pitch_7_25` made from `pitch_7_9` keeps note number
and fraction. -/
theorem C06_pitch_note_numbers (n : Byte) (hn : n < 128) :
    pitch79Note (pitch79OfNote n) = n ∧
    (∃ p, pitch725OfNote n = .ok p ∧ pitch725Note p = n ∧ pitch725Of79 (pitch79OfNote n) = p) := by
  have : ∀ n : Byte, n < 128 → pitch79Note (pitch79OfNote n) = n ∧
      pitch725Note (n.setWidth 32 <<< 25) = n ∧ pitch725Of79 (pitch79OfNote n) = n.setWidth 32 <<< 25 := by
    decide +kernel
  obtain ⟨a, b, c⟩ := this n hn
  exact ⟨a, _, by simp only [pitch725OfNote, if_pos hn], b, c⟩

/-- C06: converting `pitch_7_9` to `pitch_7_25` is the exact fixed point conversion and keeps the note number. -/
theorem C06_pitch_7_9_to_7_25 (p : U16) :
    (pitch725Of79 p).toNat = p.toNat * 2 ^ 16 ∧ pitch725Note (pitch725Of79 p) = pitch79Note p := by
  constructor
  · have := p.isLt
    simp only [pitch725Of79, BitVec.toNat_shiftLeft, BitVec.toNat_setWidth, Nat.shiftLeft_eq]
    omega
  · simp only [pitch725Note, pitch725Of79, pitch79Note]; bits

example : upsample14to32 0x2001 = .ok 0x80040020 := by decide +kernel

end Midi
