import Verif.Model.PitchTypes
import Verif.Model.Float
import Verif.Props.Arithmetic
import Verif.Props.Scaling
import Verif.Props.Float
import Verif.Props.FloatPitch

/-!
# Property C60: the pitch of a bent note; further laws for C07 and C08
-/

namespace Midi

/-- C07: adding increments is monotone in both arguments. -/
theorem C07_increment_add_monotone (a a' b b' : Word) (ha : a.toInt ≤ a'.toInt) (hb : b.toInt ≤ b'.toInt) :
    ∃ r r', pitchIncAdd a b = .ok r ∧ pitchIncAdd a' b' = .ok r' ∧ r.toInt ≤ r'.toInt := by
  obtain ⟨r, hr, e⟩ := C07_increment_add a b
  obtain ⟨r', hr', e'⟩ := C07_increment_add a' b'
  refine ⟨r, r', hr, hr', ?_⟩
  unfold saturate at *
  omega

example := C07_increment_add_monotone 0xFFFFFF00 0x100 0x80000000 0x7FFFFFFF (by decide) (by decide)

/-- C07: the compound assignments store the exact sum clamped to the range, as the operators return it. -/
theorem C07_compound (v inc : Word) :
    (∃ r, pitchIncAddAssign v inc = .ok r ∧ pitchIncAdd v inc = .ok r ∧
      r.toInt = saturate (v.toInt + inc.toInt) (-2 ^ 31) (2 ^ 31 - 1)) ∧
    (∃ r, pitch725AddAssign v inc = .ok r ∧ pitch725Add v inc = .ok r ∧
      (r.toNat : Int) = saturate (v.toNat + inc.toInt) 0 (2 ^ 32 - 1)) ∧
    (∃ r, controllerAddAssign v inc = .ok r ∧ controllerAdd v inc = .ok r ∧
      (r.toNat : Int) = saturate (v.toNat + inc.toInt) 0 (2 ^ 32 - 1)) := by
  obtain ⟨a, ha, ea⟩ := C07_increment_add v inc
  obtain ⟨b, hb, eb⟩ := C07_pitch_add v inc
  obtain ⟨c, hc, ec⟩ := C07_controller_add v inc
  exact ⟨⟨a, ha, ha, ea⟩, ⟨b, hb, hb, eb⟩, ⟨c, hc, hc, ec⟩⟩

/-- C07: adding two increments one after the other is the same as adding their sum, as long as nothing is clamped on the
way. -/
theorem C07_add_twice (p a b : Word) (h1 : 0 ≤ p.toNat + a.toInt) (h2 : p.toNat + a.toInt < 2 ^ 32)
    (h3 : -2 ^ 31 ≤ a.toInt + b.toInt) (h4 : a.toInt + b.toInt < 2 ^ 31) :
    ∃ q s r, pitch725Add p a = .ok q ∧ pitchIncAdd a b = .ok s ∧ pitch725Add q b = .ok r ∧ pitch725Add p s = .ok r := by
  obtain ⟨q, hq, eq⟩ := C07_pitch_add p a
  obtain ⟨s, hs, es⟩ := C07_increment_add a b
  obtain ⟨r, hr, er⟩ := C07_pitch_add q b
  obtain ⟨r', hr', er'⟩ := C07_pitch_add p s
  refine ⟨q, s, r, hq, hs, hr, ?_⟩
  rw [hr']
  congr 1
  apply BitVec.eq_of_toNat_eq
  unfold saturate at *
  omega

example : ∃ q s r, pitch725Add 0x78000000 0x7FFFFFFF = .ok q ∧ pitchIncAdd 0x7FFFFFFF 0xFFFFFFFF = .ok s ∧
    pitch725Add q 0xFFFFFFFF = .ok r ∧ pitch725Add 0x78000000 s = .ok r :=
  C07_add_twice 0x78000000 0x7FFFFFFF 0xFFFFFFFF (by decide) (by decide) (by decide) (by decide)

/-- C07: this is different if the first sum is clamped. -/
theorem C07_clamped_differs : pitch725Add 0xF0000000 0x20000000 = .ok 0xFFFFFFFF ∧
    pitch725Add 0xFFFFFFFF 0xE0000000 = .ok 0xDFFFFFFF ∧ pitchIncAdd 0x20000000 0xE0000000 = .ok 0 ∧
    pitch725Add 0xF0000000 0 = .ok 0xF0000000 := by decide +kernel

/-- C08: the product does not depend on the order of the factors. -/
theorem C08_swapped (pb sens : Word) : sensitivityTimesBend sens pb = bendTimesSensitivity pb sens := rfl

/-- C08: antisymmetry is lost to clamping for sensitivities of more than 64 semitones. -/
theorem C08_clamped_not_antisymmetric : ∃ up down, bendTimesSensitivity 0xFFFFFFFF 0xFFFFFFFF = .ok up ∧
    bendTimesSensitivity 0x00000001 0xFFFFFFFF = .ok down ∧ up.toInt = 2 ^ 31 - 1 ∧ down.toInt = -2 ^ 31 :=
  ⟨0x7FFFFFFF, 0x80000000, by decide +kernel, by decide +kernel, by decide, by decide⟩

/-! ## C60 -/

/-- The pitch that sounds: `pitch + bend * sensitivity`. -/
def bent (p pb sens : Word) : Except Fault Word := do
  let inc ← bendTimesSensitivity pb sens
  pitch725Add p inc

/-- C60: a bent pitch is always defined, and is the exact one clamped to the range; a sensitivity of up to 64 semitones is
never clamped itself. -/
theorem C60_exact (p pb sens : Word) (hs : sens.toNat ≤ 2 ^ 31) :
    ∃ r, bent p pb sens = .ok r ∧ (r.toNat : Int) = saturate (p.toNat + specBend pb.toNat sens.toNat) 0 (2 ^ 32 - 1) := by
  obtain ⟨i, hi, ei⟩ := C08_bend_exact pb sens
  obtain ⟨r, hr, er⟩ := C07_pitch_add p i
  refine ⟨r, by rw [bent, hi]; exact hr, ?_⟩
  rw [er, ei]
  have hp := pb.isLt
  have hb := bend_product_bounds ((pb.toNat : Int) - 2 ^ 31) sens.toNat (by omega) (by omega) (by omega)
  unfold specBend
  generalize ((pb.toNat : Int) - 2 ^ 31) * sens.toNat = P at *
  rw [tdiv_cases]
  unfold saturate
  split <;> omega

example := C60_exact 0x7801000 0x40000000 0x4000000 (by decide)

/-- C60: a centred pitch bend leaves every pitch as it is; so does a bend that was reset or never set. -/
theorem C60_centre (p sens pb : Word) : bent p 0x80000000 sens = .ok p ∧ bent p (pitchBendReset pb) sens = .ok p ∧
    bent p defaultPitchBend sens = .ok p := by
  have : bent p 0x80000000 sens = .ok p := by
    rw [bent, C08_bend_center]
    obtain ⟨r, hr, er⟩ := C07_pitch_add p 0
    rw [ok_bind, hr]
    refine congrArg _ (BitVec.eq_of_toNat_eq ?_)
    have := p.isLt
    have h0 : (0 : Word).toInt = 0 := rfl
    rw [h0] at er
    unfold saturate at er
    omega
  exact ⟨this, this, this⟩

/-- C60: the bent pitch differs from the pitch by no more than the sensitivity, in the direction of the bend, whatever the
values are. -/
theorem C60_bounded (p pb sens : Word) :
    ∃ r, bent p pb sens = .ok r ∧ (p.toNat : Int) - sens.toNat ≤ r.toNat ∧ r.toNat ≤ p.toNat + sens.toNat ∧
      (pb.toNat ≤ 2 ^ 31 → r ≤ p) ∧ (2 ^ 31 ≤ pb.toNat → p ≤ r) := by
  obtain ⟨i, hi, h1, h2, h3, h4⟩ := C08_bend_bounded pb sens
  obtain ⟨r, hr, er⟩ := C07_pitch_add p i
  refine ⟨r, by rw [bent, hi]; exact hr, ?_⟩
  have hp := p.isLt
  have hi0 : pb.toNat = 2 ^ 31 → i.toInt = 0 := by
    intro h
    have : pb = 0x80000000 := BitVec.eq_of_toNat_eq h
    rw [this, C08_bend_center] at hi
    injection hi with hi
    rw [← hi]; rfl
  simp only [BitVec.le_def]
  unfold saturate at er
  refine ⟨by omega, by omega, fun h => ?_, fun h => ?_⟩
  · rcases Nat.lt_or_ge pb.toNat (2 ^ 31) with h' | h'
    · have := h3 h'; omega
    · have := hi0 (by omega); omega
  · have := h4 h; omega

/-- C60: bending further up never lowers the pitch, and a higher pitch bent the same way is not lower. -/
theorem C60_monotone (p p' pb pb' sens : Word) (hp : p ≤ p') (hb : pb ≤ pb') :
    ∃ r r', bent p pb sens = .ok r ∧ bent p' pb' sens = .ok r' ∧ r ≤ r' := by
  obtain ⟨i, i', hi, hi', hle⟩ := C08_bend_monotone pb pb' sens hb
  obtain ⟨r, r', hr, hr', h⟩ := C07_pitch_add_monotone p p' i i' hp hle
  exact ⟨r, r', by rw [bent, hi]; exact hr, by rw [bent, hi']; exact hr', h⟩

example := C60_monotone 0x7801000 0x7802000 0x40000000 0xC0000000 0x4000000 (by decide) (by decide)

/-- C60: a note with full pitch bend down and a sensitivity of whole semitones is exactly that many semitones lower. -/
theorem C60_full_down (n k : Byte) (hn : n < 128) (hk : k ≤ 64) (hnk : k ≤ n) :
    ∃ p s q, pitch725OfNote n = .ok p ∧ pitch725OfNote k = .ok s ∧ pitch725OfNote (n - k) = .ok q ∧
      bent p 0 s = .ok q := by
  rw [BitVec.lt_def] at hn
  rw [BitVec.le_def] at hk hnk
  have hsub : (n - k).toNat = n.toNat - k.toNat := by
    rw [BitVec.toNat_sub]
    have := n.isLt; have := k.isLt
    omega
  have hn' : n.toNat < 128 := hn
  have hk' : k.toNat ≤ 64 := hk
  have key : ∀ m : Byte, m.toNat < 128 → ∃ p, pitch725OfNote m = .ok p ∧ p.toNat = m.toNat * 2 ^ 25 := by
    intro m hm
    refine ⟨_, if_pos (by rw [BitVec.lt_def]; exact hm), ?_⟩
    rw [BitVec.toNat_shiftLeft, BitVec.toNat_setWidth, Nat.shiftLeft_eq]
    omega
  obtain ⟨p, hp, ep⟩ := key n hn'
  obtain ⟨s, hs, es⟩ := key k (by omega)
  obtain ⟨q, hq, eq⟩ := key (n - k) (by omega)
  refine ⟨p, s, q, hp, hs, hq, ?_⟩
  obtain ⟨r, hr, er⟩ := C60_exact p 0 s (by omega)
  rw [hr]
  congr 1
  apply BitVec.eq_of_toNat_eq
  unfold specBend saturate at er
  rw [tdiv_cases] at er
  simp only [BitVec.ofNat_eq_ofNat, BitVec.toNat_ofNat, Nat.zero_mod] at er
  split at er <;> omega

example := C60_full_down 60 2 (by decide) (by decide) (by decide)

/-- C60: full pitch bend up misses the higher note by the smallest possible amount, so that `note_nr()` reports one note
less. -/
theorem C60_full_up (n k : Byte) (hk0 : 0 < k) (hk : k ≤ 64) (hnk : n.toNat + k.toNat ≤ 128) :
    ∃ p s q, pitch725OfNote n = .ok p ∧ pitch725OfNote k = .ok s ∧ bent p 0xFFFFFFFF s = .ok q ∧
      q.toNat + 1 = (n.toNat + k.toNat) * 2 ^ 25 ∧ (pitch725Note q).toNat = n.toNat + k.toNat - 1 := by
  rw [BitVec.lt_def] at hk0
  rw [BitVec.le_def] at hk
  have hk0' : 0 < k.toNat := hk0
  have hk' : k.toNat ≤ 64 := hk
  have key : ∀ m : Byte, m.toNat < 128 → ∃ p, pitch725OfNote m = .ok p ∧ p.toNat = m.toNat * 2 ^ 25 := by
    intro m hm
    refine ⟨_, if_pos (by rw [BitVec.lt_def]; exact hm), ?_⟩
    rw [BitVec.toNat_shiftLeft, BitVec.toNat_setWidth, Nat.shiftLeft_eq]
    omega
  obtain ⟨p, hp, ep⟩ := key n (by omega)
  obtain ⟨s, hs, es⟩ := key k (by omega)
  obtain ⟨q, hq, eq⟩ := C60_exact p 0xFFFFFFFF s (by omega)
  have ff : (0xFFFFFFFF : Word).toNat = 4294967295 := rfl
  have hqn : q.toNat + 1 = (n.toNat + k.toNat) * 2 ^ 25 := by
    unfold specBend saturate at eq
    rw [tdiv_cases, ff, es] at eq
    split at eq <;> omega
  refine ⟨p, s, q, hp, hs, hq, hqn, ?_⟩
  rw [pitch725Note, BitVec.toNat_setWidth, BitVec.toNat_ushiftRight, Nat.shiftRight_eq_div_pow]
  omega

example := C60_full_up 60 2 (by decide) (by decide) (by decide)

/-- C60: without a sensitivity of its own, a pitch bend has a range of two semitones. -/
theorem C60_default : ∃ s, defaultSensitivity = .ok s ∧ pitch725OfNote 2 = .ok s ∧
    Fp.pitch725AsDouble s = .fin 2 ∧ Fp.pitchBendAsDouble defaultPitchBend = .fin 0 ∧
    Fp.velocityAs Fp.double defaultVelocity = .fin (1 / 2) := by
  refine ⟨0x04000000, by rfl, by rfl, ?_, Fp.C50_pitch_bend_as_double.2.2.2.1, (Fp.C50_velocity_as Fp.double (.inr rfl)).2.2.2.1⟩
  rw [(Fp.C50_pitch_7_25_round_trip 0x04000000).1]
  congr 1
  show ((67108864 : ℕ) : ℚ) / 33554432 = 2
  norm_num

/-- C60: pitches survive being transported as a controller value, and controller values as a pitch. -/
theorem C60_controller (v : Word) : pitchOfController (controllerOfPitch v) = v ∧
    controllerOfPitch (pitchOfController v) = v := ⟨rfl, rfl⟩

example : bent 0x78000000 0 0x04000000 = .ok 0x74000000 ∧ bent 0x78000000 0xFFFFFFFF 0x04000000 = .ok 0x7BFFFFFF ∧
    bent 0x01000000 0 0x04000000 = .ok 0 := by decide +kernel

end Midi
