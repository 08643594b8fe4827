import Verif.Lemmas.Bits
import Verif.Model.Packet

/-!
# Helper lemmas: a packet is sixteen bytes
-/

namespace Midi
namespace Packet

/-- The packet made of four words given by their bytes. -/
theorem byteAt_eq (p : Packet) (b : Nat) : p.byteAt b = byteOf (p.word (b / 4)) (b % 4) := rfl

theorem word_setWord_same (p : Packet) (i : Nat) (hi : i < 4) (w : Word) : (p.setWord i w).word i = w := by
  interval_cases i <;> rfl

theorem word_setWord_ne (p : Packet) (i j : Nat) (hi : i < 4) (hj : j < 4) (h : j ≠ i) (w : Word) :
    (p.setWord i w).word j = p.word j := by
  interval_cases i <;> interval_cases j <;> first | rfl | exact absurd rfl h

/-- Replacing the `k`-th most significant byte of a word, as written in `set_byte`. -/
def putB (w : Word) (k : Nat) (v : Byte) : Word :=
  match k with
  | 0 => (w &&& 0x00FFFFFF) ||| (v.setWidth 32 <<< 24)
  | 1 => (w &&& 0xFF00FFFF) ||| (v.setWidth 32 <<< 16)
  | 2 => (w &&& 0xFFFF00FF) ||| (v.setWidth 32 <<< 8)
  | _ => (w &&& 0xFFFFFF00) ||| v.setWidth 32

theorem putByte_eq (p : Packet) (b : Nat) (v : Byte) :
    p.putByte b v = p.setWord (b / 4) (putB (p.word (b / 4)) (b % 4) v) := rfl

theorem byteOf_putB_same (w : Word) (k : Nat) (hk : k < 4) (v : Byte) : byteOf (putB w k v) k = v := by
  interval_cases k <;> (simp only [byteOf, putB]; bits)

theorem byteOf_putB_ne (w : Word) (k j : Nat) (hk : k < 4) (hj : j < 4) (h : j ≠ k) (v : Byte) :
    byteOf (putB w k v) j = byteOf w j := by
  interval_cases k <;> interval_cases j <;>
    first | exact absurd rfl h | (simp only [byteOf, putB]; bits)

theorem byteAt_putByte_same (p : Packet) {b : Nat} (hb : b < 16) (v : Byte) : (p.putByte b v).byteAt b = v := by
  rw [byteAt_eq, putByte_eq, word_setWord_same _ _ (by omega), byteOf_putB_same _ _ (by omega)]

theorem byteAt_putByte_ne (p : Packet) {b c : Nat} (hb : b < 16) (hc : c < 16) (h : c ≠ b) (v : Byte) :
    (p.putByte b v).byteAt c = p.byteAt c := by
  rw [byteAt_eq, putByte_eq, byteAt_eq]
  by_cases hw : c / 4 = b / 4
  · rw [hw, word_setWord_same _ _ (by omega), byteOf_putB_ne _ _ _ (by omega) (by omega) (by omega)]
  · rw [word_setWord_ne _ _ _ (by omega) (by omega) hw]

theorem byteAt_putByte (p : Packet) {b c : Nat} (hb : b < 16) (hc : c < 16) (v : Byte) :
    (p.putByte b v).byteAt c = if c = b then v else p.byteAt c := by
  split
  · next h => subst h; exact byteAt_putByte_same p hb v
  · next h => exact byteAt_putByte_ne p hb hc h v

/-- Two packets with the same sixteen bytes are equal. -/
theorem ext_bytes {p q : Packet} (h : ∀ b, b < 16 → p.byteAt b = q.byteAt b) : p = q := by
  have e : ∀ b, b < 16 → byteOf (p.word (b / 4)) (b % 4) = byteOf (q.word (b / 4)) (b % 4) := h
  have h0 : p.w0 = q.w0 := word_ext (e 0 (by omega)) (e 1 (by omega)) (e 2 (by omega)) (e 3 (by omega))
  have h1 : p.w1 = q.w1 := word_ext (e 4 (by omega)) (e 5 (by omega)) (e 6 (by omega)) (e 7 (by omega))
  have h2 : p.w2 = q.w2 := word_ext (e 8 (by omega)) (e 9 (by omega)) (e 10 (by omega)) (e 11 (by omega))
  have h3 : p.w3 = q.w3 := word_ext (e 12 (by omega)) (e 13 (by omega)) (e 14 (by omega)) (e 15 (by omega))
  cases p; cases q; simp_all

theorem type_eq (p : Packet) : p.type = p.byteAt 0 >>> 4 := by
  simp only [type, byteAt, word]; bits
theorem group_eq (p : Packet) : p.group = p.byteAt 0 &&& 0x0F := by
  simp only [group, byteAt, word]; bits
theorem byte2_eq (p : Packet) : p.byte2 = p.byteAt 1 := by
  simp only [byte2, byteAt, word]
theorem byte3_eq (p : Packet) : p.byte3 = p.byteAt 2 := by
  simp only [byte3, byteAt, word]
theorem byte4_eq (p : Packet) : p.byte4 = p.byteAt 3 := by
  simp only [byte4, byteAt, word]; bits
theorem status_eq (p : Packet) : p.status = p.byteAt 1 := byte2_eq p

theorem byte0_eq (p : Packet) : p.byteAt 0 = p.type <<< 4 ||| p.group := by
  rw [type_eq, group_eq]; bits

theorem type_lt (p : Packet) : p.type.toNat < 16 := by
  rw [type_eq]
  have : ∀ b : Byte, (b >>> 4).toNat < 16 := by decide +kernel
  exact this _

theorem group_lt (p : Packet) : p.group < 16 := by
  rw [group_eq]
  have : ∀ b : Byte, (b &&& 0x0F) < 16 := by decide +kernel
  exact this _

/-- `size()` is between one and four words. -/
theorem size_bounds (p : Packet) : 1 ≤ p.size ∧ p.size ≤ 4 := by
  have h : ∀ n, n < 16 → 1 ≤ sizeLookup.getD n 0 ∧ sizeLookup.getD n 0 ≤ 4 := by decide
  exact h _ p.type_lt

theorem size_congr {p q : Packet} (h : p.w0 = q.w0) : p.size = q.size := by
  simp only [size, type, h]

theorem eqv_iff (p q : Packet) : p.eqv q = true ↔ ∀ i, i < p.size → p.word i = q.word i := by
  simp [eqv]

theorem eqv_w0 {p q : Packet} (h : p.eqv q = true) : p.w0 = q.w0 :=
  (eqv_iff p q).1 h 0 p.size_bounds.1

theorem setGroup_ok (p : Packet) {g : Byte} (h : g < 16) :
    p.setGroup g = .ok { p with w0 := (p.w0 &&& 0xF0FFFFFF) ||| (g.setWidth 32 <<< 24) } := by
  unfold setGroup; rw [assert_ok (by simpa using h)]; rfl

theorem setGroup_fail (p : Packet) {g : Byte} (h : ¬ g < 16) : p.setGroup g = .error .assertFailed := by
  unfold setGroup; rw [assert_fail (by simpa using h)]; rfl

theorem setType_ok (p : Packet) {g : Byte} (h : g < 16) :
    p.setType g = .ok { p with w0 := (p.w0 &&& 0x0FFFFFFF) ||| (g.setWidth 32 <<< 28) } := by
  unfold setType; rw [assert_ok (by simpa using h)]; rfl

theorem setType_fail (p : Packet) {g : Byte} (h : ¬ g < 16) : p.setType g = .error .assertFailed := by
  unfold setType; rw [assert_fail (by simpa using h)]; rfl

@[simp] theorem getByte_lt (p : Packet) {b : Nat} (h : b < 16) : p.getByte b = .ok (p.byteAt b) := by
  simp [getByte, h]

@[simp] theorem setByte_lt (p : Packet) {b : Nat} (h : b < 16) (v : Byte) : p.setByte b v = .ok (p.putByte b v) := by
  simp [setByte, h]

end Packet
end Midi
