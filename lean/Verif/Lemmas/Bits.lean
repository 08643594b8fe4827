import Mathlib.Tactic.IntervalCases
import Verif.Model.Basic

/-!
# Tactics and lemmas about bits of fixed width words
-/

namespace Midi

/-- Proves an equality of bit vectors of literal width bit by bit. Extra simp lemmas may be given. -/
syntax "bits" (" [" Lean.Parser.Tactic.simpLemma,* "]")? : tactic

macro_rules
  | `(tactic| bits) => `(tactic| (
      refine BitVec.eq_of_getLsbD_eq ?_
      intro i hi
      interval_cases i <;>
        simp [BitVec.getLsbD_setWidth, BitVec.getLsbD_shiftLeft, BitVec.getLsbD_ushiftRight]))
  | `(tactic| bits [$ls,*]) => `(tactic| (
      refine BitVec.eq_of_getLsbD_eq ?_
      intro i hi
      interval_cases i <;>
        simp [BitVec.getLsbD_setWidth, BitVec.getLsbD_shiftLeft, BitVec.getLsbD_ushiftRight, $ls,*]))

/-- A byte below 16 has its upper four bits clear. -/
theorem lt16_bits {b : Byte} (h : b < 16) :
    b[4] = false ∧ b[5] = false ∧ b[6] = false ∧ b[7] = false := by
  revert h; revert b; decide +kernel

/-- A byte below 128 has its upper bit clear. -/
theorem lt128_bits {b : Byte} (h : b < 128) : b[7] = false := by
  revert h; revert b; decide +kernel

/-! Computing with `Except` -/

@[simp] theorem ok_bind {ε α β : Type _} (a : α) (f : α → Except ε β) : (Except.ok a >>= f) = f a := rfl
@[simp] theorem error_bind {ε α β : Type _} (e : ε) (f : α → Except ε β) : (Except.error e >>= f) = .error e := rfl
@[simp] theorem ok_map {ε α β : Type _} (a : α) (f : α → β) : (f <$> (Except.ok a : Except ε α)) = .ok (f a) := rfl
@[simp] theorem error_map {ε α β : Type _} (e : ε) (f : α → β) : (f <$> (Except.error e : Except ε α)) = .error e := rfl
theorem pure_eq_ok {ε α : Type _} (a : α) : (pure a : Except ε α) = .ok a := rfl

theorem assert_ok {c : Bool} (h : c = true) : assert c = .ok () := by simp [assert, h]
theorem assert_fail {c : Bool} (h : c = false) : assert c = .error .assertFailed := by simp [assert, h]

/-- The `k`-th most significant byte of a word. -/
def byteOf (w : Word) (k : Nat) : Byte := ((w >>> ((3 - k) * 8)) &&& 0xFF).setWidth 8

/-- A word made of four bytes, most significant first. -/
def wordOf (a b c d : Byte) : Word :=
  a.setWidth 32 <<< 24 ||| b.setWidth 32 <<< 16 ||| c.setWidth 32 <<< 8 ||| d.setWidth 32

@[simp] theorem byteOf_wordOf_0 (a b c d : Byte) : byteOf (wordOf a b c d) 0 = a := by
  unfold byteOf wordOf; bits
@[simp] theorem byteOf_wordOf_1 (a b c d : Byte) : byteOf (wordOf a b c d) 1 = b := by
  unfold byteOf wordOf; bits
@[simp] theorem byteOf_wordOf_2 (a b c d : Byte) : byteOf (wordOf a b c d) 2 = c := by
  unfold byteOf wordOf; bits
@[simp] theorem byteOf_wordOf_3 (a b c d : Byte) : byteOf (wordOf a b c d) 3 = d := by
  unfold byteOf wordOf; bits

/-- Every word is made of its four bytes. -/
theorem wordOf_byteOf (w : Word) : wordOf (byteOf w 0) (byteOf w 1) (byteOf w 2) (byteOf w 3) = w := by
  unfold byteOf wordOf; bits

theorem word_ext {v w : Word} (h0 : byteOf v 0 = byteOf w 0) (h1 : byteOf v 1 = byteOf w 1)
    (h2 : byteOf v 2 = byteOf w 2) (h3 : byteOf v 3 = byteOf w 3) : v = w := by
  rw [← wordOf_byteOf v, ← wordOf_byteOf w, h0, h1, h2, h3]

theorem wordOf_inj {a b c d a' b' c' d' : Byte} :
    wordOf a b c d = wordOf a' b' c' d' ↔ a = a' ∧ b = b' ∧ c = c' ∧ d = d' := by
  constructor
  · intro h
    have h0 := congrArg (byteOf · 0) h
    have h1 := congrArg (byteOf · 1) h
    have h2 := congrArg (byteOf · 2) h
    have h3 := congrArg (byteOf · 3) h
    simp at h0 h1 h2 h3
    exact ⟨h0, h1, h2, h3⟩
  · rintro ⟨rfl, rfl, rfl, rfl⟩; rfl

theorem toNat_byteOf (w : Word) (k : Nat) : (byteOf w k).toNat = w.toNat / 2 ^ ((3 - k) * 8) % 256 := by
  have hm : ∀ n : Nat, n &&& 255 = n % 256 := fun n => Nat.and_two_pow_sub_one_eq_mod n 8
  simp [byteOf, BitVec.toNat_ushiftRight, hm, Nat.shiftRight_eq_div_pow]

theorem toNat_wordOf (a b c d : Byte) :
    (wordOf a b c d).toNat = a.toNat * 2 ^ 24 + b.toNat * 2 ^ 16 + c.toNat * 2 ^ 8 + d.toNat := by
  have h0 := toNat_byteOf (wordOf a b c d) 0
  have h1 := toNat_byteOf (wordOf a b c d) 1
  have h2 := toNat_byteOf (wordOf a b c d) 2
  have h3 := toNat_byteOf (wordOf a b c d) 3
  simp only [byteOf_wordOf_0, byteOf_wordOf_1, byteOf_wordOf_2, byteOf_wordOf_3] at h0 h1 h2 h3
  have := (wordOf a b c d).isLt
  omega
end Midi
