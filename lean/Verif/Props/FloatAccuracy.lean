import Verif.Lemmas.FloatAccuracy
import Verif.Props.FloatPitch

/-!
C50: how accurate conversions between MIDI values and floating point numbers are. A number between 0 and 1 stands for that
part of the range of a velocity or a controller value, and a number between -1 and 1 for that part of the range of a pitch
bend.
-/

namespace Midi.Fp

open Flt Spec.Fp

theorem rep_of {q : ℚ} (h : IsFloat q ∨ IsDouble q) : Rep double q := by
  rcases h with h | h
  · exact Rep.widen h.1
  · exact h.1

/-- C50: a number between 0 and 1 is converted to a velocity that is less than one step away from that part of the range. -/
theorem C50_velocity_accuracy (q : ℚ) (hq : IsFloat q ∨ IsDouble q) (h0 : 0 ≤ q) (h1 : q ≤ 1) :
    ∃ v, velocityOf (fin q) = .ok v ∧ |(v.toNat : ℚ) - q * 65535| < 1 ∧ (q ≤ 1 / 2 → (v.toNat : ℤ) = ⌊q * 65536⌋) := by
  obtain ⟨v, e, hv⟩ := fromFloat01_toNat (n := 16) (by decide) (by decide) (f := fin q) (by intro h; cases h)
  have hr : Rep double (q * (2 * ((2 ^ 15 : ℕ) : ℚ))) := by
    have := (rep_of hq).scale 16
    convert this using 2
    norm_num
  have hv' : (v.toNat : ℤ) = val (2 ^ 15) q := hv
  have hc : (v.toNat : ℚ) = (val (2 ^ 15) q : ℚ) := by exact_mod_cast hv'
  refine ⟨v, e, ?_, fun h => ?_⟩
  · have := (val_near (by decide) (by decide) h0 h1 hr).1
    rw [hc]
    convert this using 4
    norm_num
  · rw [hv', val_low h0 h hr]
    norm_num

example := C50_velocity_accuracy (3 / 4) (Or.inl ⟨⟨3, -2, by decide, by decide, by norm_num⟩, by norm_num [abs_of_pos]⟩)
  (by norm_num) (by norm_num)

/-- C50: a number between 0 and 1 is converted to a controller value that is less than one step away from that part of the
range. -/
theorem C50_controller_accuracy (q : ℚ) (hq : IsFloat q ∨ IsDouble q) (h0 : 0 ≤ q) (h1 : q ≤ 1) :
    ∃ v, controllerOf (fin q) = .ok v ∧ |(v.toNat : ℚ) - q * 4294967295| < 1 ∧
      (q ≤ 1 / 2 → (v.toNat : ℤ) = ⌊q * 4294967296⌋) := by
  obtain ⟨v, e, hv⟩ := fromFloat01_toNat (n := 32) (by decide) (by decide) (f := fin q) (by intro h; cases h)
  have hr : Rep double (q * (2 * ((2 ^ 31 : ℕ) : ℚ))) := by
    have := (rep_of hq).scale 32
    convert this using 2
    norm_num
  have hv' : (v.toNat : ℤ) = val (2 ^ 31) q := hv
  have hc : (v.toNat : ℚ) = (val (2 ^ 31) q : ℚ) := by exact_mod_cast hv'
  refine ⟨v, e, ?_, fun h => ?_⟩
  · have := (val_near (by decide) (by decide) h0 h1 hr).1
    rw [hc]
    convert this using 4
    norm_num
  · rw [hv', val_low h0 h hr]
    norm_num

example := C50_controller_accuracy (3 / 4) (Or.inl ⟨⟨3, -2, by decide, by decide, by norm_num⟩, by norm_num [abs_of_pos]⟩)
  (by norm_num) (by norm_num)

/-- C50: a number between -1 and 1 is converted to a pitch bend that is less than one step away from that part of the range if
it is a `double`, and less than 129 of the 2^32 steps if it is a `float`. -/
theorem C50_pitch_bend_accuracy (q : ℚ) (h0 : -1 ≤ q) (h1 : q ≤ 1) :
    (IsDouble q → ∃ v, pitchBendOf double (fin q) = .ok v ∧ |(v.toNat : ℚ) - (q + 1) / 2 * 4294967295| < 1) ∧
    (IsFloat q → ∃ v, pitchBendOf single (fin q) = .ok v ∧ |(v.toNat : ℚ) - (q + 1) / 2 * 4294967295| < 129) := by
  have key : ∀ F : Fmt, F = single ∨ F = double → Rep F q → ∃ v r, pitchBendOf F (fin q) = .ok v ∧
      |r - (q + 1) / 2| ≤ 1 / 2 ^ (F.prec + 1) ∧ (r = (q + 1) / 2 ∨ 1 / 4 ≤ r) ∧
      |(v.toNat : ℚ) - r * 4294967295| < 1 ∧ (1 / 4 ≤ r → |(v.toNat : ℚ) - r * 4294967295| ≤ 3 / 4) := by
    intro F hF hq
    obtain ⟨r, er, hr, hr0, hr1, herr, hcase⟩ := bend_near hF hq h0 h1
    obtain ⟨v, e, hv⟩ := fromFloat01_toNat (n := 32) (by decide) (by decide) (f := fin r) (by intro h; cases h)
    have hrr : Rep double (r * (2 * ((2 ^ 31 : ℕ) : ℚ))) := by
      have := (hr.double hF).scale 32
      convert this using 2
      norm_num
    have hv' : (v.toNat : ℤ) = val (2 ^ 31) r := hv
    have hc : (v.toNat : ℚ) = (val (2 ^ 31) r : ℚ) := by exact_mod_cast hv'
    have hn := val_near (K := 2 ^ 31) (by decide) (by decide) hr0 hr1 hrr
    rw [← hc, show (2 * ((2 ^ 31 : ℕ) : ℚ) - 1) = 4294967295 by norm_num] at hn
    refine ⟨v, r, ?_, herr, hcase, hn.1, hn.2⟩
    unfold pitchBendOf
    show fromFloat01 32 (bend F (fin q)) = _
    rw [er]
    exact e
  constructor
  · intro hq
    obtain ⟨v, r, e, herr, hcase, h, h'⟩ := key double (Or.inr rfl) hq.1
    refine ⟨v, e, ?_⟩
    rw [show double.prec + 1 = 54 from rfl, abs_le] at herr
    rcases hcase with rfl | hcase
    · exact h
    · have := h' hcase
      rw [abs_le] at this
      rw [abs_lt]
      constructor <;> linarith
  · intro hq
    obtain ⟨v, r, e, herr, -, h, -⟩ := key single (Or.inl rfl) hq.1
    refine ⟨v, e, ?_⟩
    rw [show single.prec + 1 = 25 from rfl, abs_le] at herr
    rw [abs_lt] at h ⊢
    constructor <;> linarith

example := (C50_pitch_bend_accuracy (-1 / 4) (by norm_num) (by norm_num)).2
  ⟨⟨-1, -2, by decide, by decide, by norm_num⟩, by norm_num [abs_of_neg]⟩

-- a `float` can be more than 127 steps away: the exact result is 0x80000000 + 127.5
example : pitchBendOf single (fin (16777215 / 281474976710656)) = .ok 0x80000000 := by decide +kernel

/-- C50: a velocity is converted to its part of the range: exactly up to the centre, and as exactly as the format permits
above. -/
theorem C50_velocity_as_accuracy (v : U16) (F : Fmt) (hF : F = single ∨ F = double) :
    ∃ q, velocityAs F v = fin q ∧ (v ≤ 0x8000 → q = v.toNat / 65536) ∧
      (0x8000 < v → |q - v.toNat / 65535| ≤ if F = double then 1 / 2 ^ 54 else 1 / 2 ^ 25 + 1 / 2 ^ 54) := by
  obtain ⟨e, hr⟩ := toFloat01_eq hF (n := 16) (by decide) (by decide) v
  have hlt := v.isLt
  refine ⟨_, e, fun h => ?_, fun h => ?_⟩
  · have hle : v.toNat ≤ 2 ^ (16 - 1) := BitVec.le_def.1 h
    have hrep : Rep F ((v.toNat : ℚ) / (2 * ((2 ^ (16 - 1) : ℕ) : ℚ))) := by
      have := rep_div (F := F) 16 (by rcases hF with rfl | rfl <;> decide) v.toNat (by
        rw [abs_of_nonneg (by omega)]
        refine lt_of_lt_of_le (show (v.toNat : ℤ) < 2 ^ 16 by exact_mod_cast hlt) ?_
        rcases hF with rfl | rfl <;> decide)
      convert this using 1
      norm_num
    unfold tval
    rw [if_pos hle, round_rep hrep]
    norm_num
  · have hgt : ¬v.toNat ≤ 2 ^ (16 - 1) := by
      have : (0x8000 : U16).toNat < v.toNat := BitVec.lt_def.1 h
      have : (0x8000 : U16).toNat = 2 ^ (16 - 1) := rfl
      omega
    have := tval_near hF (K := 2 ^ (16 - 1)) (v := v.toNat) (by decide) (by omega) hr
    rw [if_neg hgt] at this
    rw [show (2 * ((2 ^ (16 - 1) : ℕ) : ℚ) - 1) = 65535 by norm_num] at this
    exact this

example := C50_velocity_as_accuracy 0xC000 single (Or.inl rfl)

/-- C50: a controller value is converted to its part of the range, as exactly as the format permits. -/
theorem C50_controller_as_accuracy (v : Word) (F : Fmt) (hF : F = single ∨ F = double) :
    ∃ q, controllerAs F v = fin q ∧
      (v ≤ 0x80000000 → |q - v.toNat / 4294967296| ≤ if F = double then 0 else 1 / 2 ^ 25) ∧
      (0x80000000 < v → |q - v.toNat / 4294967295| ≤ if F = double then 1 / 2 ^ 54 else 1 / 2 ^ 25 + 1 / 2 ^ 54) := by
  obtain ⟨e, hr⟩ := toFloat01_eq hF (n := 32) (by decide) (by decide) v
  have hlt := v.isLt
  refine ⟨_, e, fun h => ?_, fun h => ?_⟩
  · have hle : v.toNat ≤ 2 ^ (32 - 1) := BitVec.le_def.1 h
    have hq : (v.toNat : ℚ) ≤ 2 ^ 32 := by exact_mod_cast (le_of_lt hlt)
    unfold tval
    rw [if_pos hle]
    rw [show (2 * ((2 ^ (32 - 1) : ℕ) : ℚ)) = 4294967296 by norm_num] at hr ⊢
    rcases hF with rfl | rfl
    · rw [if_neg (by decide)]
      exact round_error' (Or.inl rfl) (by positivity) (by rw [div_le_one (by norm_num)]; linarith)
    · rw [if_pos rfl, round_rep hr, sub_self, abs_zero]
  · have hgt : ¬v.toNat ≤ 2 ^ (32 - 1) := by
      have : (0x80000000 : Word).toNat < v.toNat := BitVec.lt_def.1 h
      have : (0x80000000 : Word).toNat = 2 ^ (32 - 1) := rfl
      omega
    have := tval_near hF (K := 2 ^ (32 - 1)) (v := v.toNat) (by decide) (by omega) hr
    rw [if_neg hgt] at this
    rw [show (2 * ((2 ^ (32 - 1) : ℕ) : ℚ) - 1) = 4294967295 by norm_num] at this
    exact this

example := C50_controller_as_accuracy 0xC0000000 single (Or.inl rfl)

theorem trip_bounds {V q W : ℚ} (h1 : |q - V / 4294967295| ≤ 1 / 2 ^ 25 + 1 / 2 ^ 54)
    (h2 : |W - q * 4294967295| ≤ 1 / 2 + 1 / 2 ^ 10) : V - 129 < W ∧ W < V + 129 := by
  rw [abs_le] at h1 h2
  constructor <;> linarith

/-- C50: a controller value converted to `float` and back is at most 128 of the 2^32 steps away. -/
theorem C50_controller_float_trip (v : Word) :
    ∃ w, controllerOf (controllerAs single v) = .ok w ∧ |(w.toNat : ℤ) - v.toNat| ≤ 128 := by
  obtain ⟨e, hr⟩ := toFloat01_eq (Or.inl rfl : single = single ∨ single = double) (n := 32) (by decide) (by decide) v
  have hlt := v.isLt
  have hrange := tval_range (Or.inl rfl : single = single ∨ single = double) (K := 2 ^ (32 - 1)) (v := v.toNat) (by decide)
    (by omega)
  have hnear := tval_near (Or.inl rfl : single = single ∨ single = double) (K := 2 ^ (32 - 1)) (v := v.toNat) (by decide)
    (by omega) hr
  have hhigh := fun h => tval_high (Or.inl rfl : single = single ∨ single = double) (K := 2 ^ (32 - 1)) (v := v.toNat)
    (by decide) h
  have hlow := fun h => tval_low (Or.inl rfl : single = single ∨ single = double) (K := 2 ^ (32 - 1)) (v := v.toNat)
    (by decide) h
  have hrep := rep_tval (Or.inl rfl : single = single ∨ single = double) (2 ^ (32 - 1)) v.toNat
  have hlow' : v.toNat ≤ 2 ^ (32 - 1) →
      |tval single (2 ^ (32 - 1)) v.toNat - (v.toNat : ℚ) / (2 * ((2 ^ (32 - 1) : ℕ) : ℚ))| ≤ 1 / 2 ^ 25 := by
    intro hle
    have hq : (v.toNat : ℚ) ≤ 2 ^ 32 := by exact_mod_cast (le_of_lt hlt)
    unfold tval
    rw [if_pos hle]
    rw [show (2 * ((2 ^ (32 - 1) : ℕ) : ℚ)) = 4294967296 by norm_num]
    exact round_error' (Or.inl rfl) (by positivity) (by rw [div_le_one (by norm_num)]; linarith)
  unfold controllerAs
  rw [e]
  generalize tval single (2 ^ (32 - 1)) v.toNat = q at *
  obtain ⟨w, ew, hw⟩ := fromFloat01_toNat (n := 32) (by decide) (by decide) (f := fin q) (by intro h; cases h)
  have hw' : (w.toNat : ℤ) = val (2 ^ 31) q := hw
  have hrr : Rep double (q * (2 * ((2 ^ 31 : ℕ) : ℚ))) := by
    have := hrep.scale 32
    convert this using 2
    norm_num
  refine ⟨w, ew, ?_⟩
  rw [hw']
  simp only [show 32 - 1 = 31 from rfl] at *
  by_cases hc : v.toNat ≤ 2 ^ 31
  · rw [val_low hrange.1 (hlow hc) hrr]
    have hn := hlow' hc
    rw [show (2 * ((2 ^ 31 : ℕ) : ℚ)) = 4294967296 by norm_num] at hn ⊢
    rw [abs_le] at hn
    have a1 : ((v.toNat : ℤ) - 128 : ℤ) ≤ ⌊q * 4294967296⌋ := by
      rw [Int.le_floor]
      push_cast
      linarith
    have a2 : ⌊q * 4294967296⌋ < (v.toNat : ℤ) + 129 := by
      rw [Int.floor_lt]
      push_cast
      linarith
    rw [abs_le]
    constructor <;> omega
  · rw [if_neg hc, fracError, if_neg (by decide)] at hnear
    have hv := val_high (K := 2 ^ 31) (by decide) (by decide) (hhigh (by omega)) hrange.2 hrr
    rw [show (2 * ((2 ^ 31 : ℕ) : ℚ) - 1) = 4294967295 by norm_num] at hnear hv
    obtain ⟨b1, b2⟩ := trip_bounds hnear hv
    have a1 : (v.toNat : ℤ) - 129 < val (2 ^ 31) q := by exact_mod_cast b1
    have a2 : val (2 ^ 31) q < (v.toNat : ℤ) + 129 := by exact_mod_cast b2
    rw [abs_le]
    constructor <;> omega

-- the bound is reached
example : controllerOf (controllerAs single 0x8000017F) = .ok 0x800000FF := by decide +kernel

/-- C50: a pitch bend is converted to its part of the range below or above the centre, as exactly as the format permits. -/
theorem C50_pitch_bend_as_accuracy (v : Word) :
    ∃ d f, pitchBendAsDouble v = fin d ∧ pitchBendAsFloat v = fin f ∧
      (v ≤ 0x80000000 → d = ((v.toNat : ℚ) - 2147483648) / 2147483648) ∧
      (0x80000000 < v → |d - ((v.toNat : ℚ) - 2147483648) / 2147483647| ≤ 1 / 2 ^ 54) ∧
      |f - d| ≤ 1 / 2 ^ 25 := by
  have hlt := v.isLt
  have hr := bendValue_range hlt
  have ef : pitchBendAsFloat v = fin (round single (bendValue v.toNat)) := by
    unfold pitchBendAsFloat
    rw [pitchBendAsDouble_eq]
    show ofRat single _ = _
    rw [ofRat_big (Or.inl rfl)]
    rw [abs_le]
    constructor <;> linarith [hr.1, hr.2.1]
  refine ⟨_, _, pitchBendAsDouble_eq v, ef, fun h => ?_, fun h => ?_, ?_⟩
  · have h' : v.toNat ≤ 2 ^ 31 := BitVec.le_def.1 h
    unfold bendValue
    by_cases hc : 2 ^ 31 ≤ v.toNat
    · have : v.toNat = 2 ^ 31 := le_antisymm h' hc
      rw [if_pos hc, this]
      norm_num [round_zero]
    · rw [if_neg hc]; norm_num
  · have h' : 2 ^ 31 < v.toNat := BitVec.lt_def.1 h
    have hq : (2 : ℚ) ^ 31 ≤ v.toNat := by exact_mod_cast (le_of_lt h')
    have hq' : (v.toNat : ℚ) + 1 ≤ 2 ^ 32 := by exact_mod_cast hlt
    unfold bendValue
    rw [if_pos (le_of_lt h')]
    have := round_error' (Or.inr rfl : double = single ∨ double = double)
      (x := ((v.toNat : ℚ) - 2147483648) / 2147483647) (div_nonneg (by linarith) (by norm_num))
      (by rw [div_le_one (by norm_num)]; linarith)
    rw [show double.prec + 1 = 54 from rfl] at this
    convert this using 3
    norm_num
  · rcases le_or_gt 0 (bendValue v.toNat) with h | h
    · exact round_error' (Or.inl rfl : single = single ∨ single = double) h hr.2.1
    · have := round_error' (Or.inl rfl : single = single ∨ single = double) (x := -bendValue v.toNat) (by linarith)
        (by linarith [hr.1])
      rw [round_neg] at this
      rw [abs_le] at this ⊢
      rw [show single.prec + 1 = 25 from rfl] at this
      constructor <;> linarith [this.1, this.2]

/-- C50: a pitch bend converted to `float` and back is at most 193 of the 2^32 steps away. -/
theorem C50_pitch_bend_float_trip (v : Word) :
    ∃ w, pitchBendOf single (pitchBendAsFloat v) = .ok w ∧ |(w.toNat : ℤ) - v.toNat| ≤ 193 := by
  have hlt := v.isLt
  obtain ⟨d, f, ed, ef, hlow, hhigh, hdf⟩ := C50_pitch_bend_as_accuracy v
  obtain ⟨q, eq', hq0, hq1⟩ := C50_pitch_bend_as_float.1 v
  have : q = f := by rw [ef] at eq'; injection eq' with h; exact h.symm
  subst this
  have hfl : IsFloat q := by
    have ed' : ofRat single d = fin q := by
      have := ef
      unfold pitchBendAsFloat at this
      rw [ed] at this
      exact this
    exact ((C50_rounding d q).1 ed').1
  obtain ⟨w, ew, hw⟩ := (C50_pitch_bend_accuracy q hq0 hq1).2 hfl
  rw [ef]
  refine ⟨w, ew, ?_⟩
  have hv0 : (0 : ℚ) ≤ v.toNat := Nat.cast_nonneg _
  have hv1 : (v.toNat : ℚ) + 1 ≤ 2 ^ 32 := by exact_mod_cast hlt
  rw [abs_le] at hdf
  rw [abs_lt] at hw
  have hd : (v.toNat : ℚ) - 3 / 4 ≤ (d + 1) / 2 * 4294967295 + 1 / 2 ^ 10 ∧ (d + 1) / 2 * 4294967295 ≤ v.toNat + 1 / 2 ^ 10 := by
    by_cases h : v ≤ 0x80000000
    · have hq : (v.toNat : ℚ) ≤ 2 ^ 31 := by
        have : v.toNat ≤ 2 ^ 31 := BitVec.le_def.1 h
        exact_mod_cast this
      rw [hlow h]
      constructor <;> linarith
    · have h' : (0x80000000 : Word) < v := by
        rw [BitVec.lt_def]
        have : ¬v.toNat ≤ (0x80000000 : Word).toNat := fun hh => h (BitVec.le_def.2 hh)
        omega
      have := hhigh h'
      have hq : (2 : ℚ) ^ 31 ≤ v.toNat := by
        have : 2 ^ 31 < v.toNat := BitVec.lt_def.1 h'
        exact_mod_cast (le_of_lt this)
      rw [abs_le] at this
      constructor <;> linarith
  have a1 : (v.toNat : ℤ) - 194 < w.toNat := by
    have : (v.toNat : ℚ) - 194 < w.toNat := by linarith
    exact_mod_cast this
  have a2 : (w.toNat : ℤ) < v.toNat + 194 := by
    have : (w.toNat : ℚ) < v.toNat + 194 := by linarith
    exact_mod_cast this
  rw [abs_le]
  constructor <;> omega

example : pitchBendOf single (pitchBendAsFloat 0xFFFFF0BF) = .ok 0xFFFFEFFF := by decide +kernel

end Midi.Fp
