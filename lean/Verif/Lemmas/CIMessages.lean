import Verif.Spec.CIMessages
import Verif.Lemmas.CI
import Verif.Lemmas.CIFactory

/-!
# Reading the fields of complete MIDI-CI messages
-/

namespace Midi.CI
open Midi.Spec UniversalSysex

theorem bindOk_iff {α β : Type} {x : Except Fault α} {f : α → Except Fault β} {b : β} :
    x >>= f = .ok b ↔ ∃ a, x = .ok a ∧ f a = .ok b := by
  cases x <;> simp

theorem ciMessage_iff {subs : List Byte} {P : Byte → List Byte → Prop} {s : Sysex} :
    CIMessage subs P s ↔ s.manufacturerID = universalNonRealtime ∧ 12 ≤ s.data.length ∧ s.data[1]? = some 0x0D ∧
      ∃ sub version, s.data[2]? = some sub ∧ sub ∈ subs ∧ s.data[3]? = some version ∧ P version (s.data.drop 12) := by
  constructor
  · rintro ⟨h, dev, sub, version, muids, payload, hd, hs, hm, hp⟩
    refine ⟨h, by rw [hd]; simp; omega, by rw [hd]; rfl, sub, version, by rw [hd]; rfl, hs, by rw [hd]; rfl, ?_⟩
    rwa [hd, List.drop_append_of_le_length (by simp; omega), List.drop_of_length_le (by simp; omega)]
  · rintro ⟨h, hl, h1, sub, version, h2, hs, h3, hp⟩
    refine ⟨h, ?_⟩
    match hd : s.data with
    | [] => rw [hd] at hl; simp at hl
    | [_] => rw [hd] at hl; simp at hl
    | [_, _] => rw [hd] at hl; simp at hl
    | [_, _, _] => rw [hd] at hl; simp at hl
    | a :: b :: c :: d :: l =>
      rw [hd] at h1 h2 h3 hl hp
      simp only [List.length_cons] at hl
      simp only [List.getElem?_cons_succ, List.getElem?_cons_zero, Option.some.injEq] at h1 h2 h3
      subst h1 h2 h3
      exact ⟨a, c, d, l.take 8, l.drop 8, by simp, hs, by simp; omega, by simpa using hp⟩

/-- Bytes of valid 7 bit sysex. -/
def Seven (s : Sysex) : Prop := ∀ b ∈ s.data, b.toNat < 128

theorem Seven.get {s : Sysex} (h : Seven s) {i : Nat} {b : Byte} (hi : s.data[i]? = some b) : b.toNat < 128 :=
  h b (List.mem_of_getElem? hi)

theorem two14 (a b : Byte) (ha : a.toNat < 128) (hb : b.toNat < 128) :
    (a.setWidth 16 ||| (b.setWidth 16 <<< 7) : U16).toNat = a.toNat + 128 * b.toNat := by
  have h1 : (b.setWidth 16 <<< 7 : U16).toNat = b.toNat <<< 7 := by
    rw [BitVec.toNat_shiftLeft, BitVec.toNat_setWidth, Nat.shiftLeft_eq]
    omega
  rw [BitVec.toNat_or, h1, BitVec.toNat_setWidth, Nat.mod_eq_of_lt (by omega), Nat.or_comm,
    ← Nat.shiftLeft_add_eq_or_of_lt (i := 7) (by simpa using ha), Nat.shiftLeft_eq]
  omega

theorem four28 (a b c d : Byte) (ha : a.toNat < 128) (hb : b.toNat < 128) (hc : c.toNat < 128) (hd : d.toNat < 128) :
    (a.setWidth 32 ||| (b.setWidth 32 <<< 7) ||| (c.setWidth 32 <<< 14) ||| (d.setWidth 32 <<< 21) : Word).toNat =
      a.toNat + 128 * b.toNat + 16384 * c.toNat + 2097152 * d.toNat := by
  have e (x : Byte) (k : Nat) (hk : k ≤ 21) (hx : x.toNat < 128) :
      (x.setWidth 32 <<< k : Word).toNat = x.toNat <<< k := by
    rw [BitVec.toNat_shiftLeft, BitVec.toNat_setWidth, Nat.mod_eq_of_lt (a := x.toNat) (by omega), Nat.shiftLeft_eq]
    refine Nat.mod_eq_of_lt (lt_of_lt_of_le (b := 128 * 2 ^ k) (Nat.mul_lt_mul_of_pos_right hx (by positivity)) ?_)
    calc 128 * 2 ^ k ≤ 128 * 2 ^ 21 := Nat.mul_le_mul_left _ (Nat.pow_le_pow_right (by decide) hk)
      _ ≤ 2 ^ 32 := by norm_num
  rw [BitVec.toNat_or, BitVec.toNat_or, BitVec.toNat_or, e b 7 (by decide) hb, e c 14 (by decide) hc,
    e d 21 (by decide) hd, BitVec.toNat_setWidth, Nat.mod_eq_of_lt (a := a.toNat) (by omega)]
  rw [Nat.or_comm a.toNat, ← Nat.shiftLeft_add_eq_or_of_lt (i := 7) (by simpa using ha), Nat.or_comm,
    Nat.or_comm _ (c.toNat <<< 14)]
  rw [← Nat.shiftLeft_add_eq_or_of_lt (i := 14) (by simp only [Nat.shiftLeft_eq]; omega),
    ← Nat.shiftLeft_add_eq_or_of_lt (i := 21) (by simp only [Nat.shiftLeft_eq]; omega)]
  simp only [Nat.shiftLeft_eq]
  omega

theorem le7_two {a b : Byte} (ha : a.toNat < 128) (hb : b.toNat < 128) : le7 2 (a.toNat + 128 * b.toNat) = [a, b] := by
  simp only [le7]
  rw [show (a.toNat + 128 * b.toNat) % 128 = a.toNat by omega,
    show (a.toNat + 128 * b.toNat) / 128 % 128 = b.toNat by omega, BitVec.ofNat_toNat, BitVec.ofNat_toNat]
  simp

theorem le7_four {a b c d : Byte} (ha : a.toNat < 128) (hb : b.toNat < 128) (hc : c.toNat < 128) (hd : d.toNat < 128) :
    le7 4 (a.toNat + 128 * b.toNat + 16384 * c.toNat + 2097152 * d.toNat) = [a, b, c, d] := by
  simp only [le7]
  rw [show (a.toNat + 128 * b.toNat + 16384 * c.toNat + 2097152 * d.toNat) % 128 = a.toNat by omega,
    show (a.toNat + 128 * b.toNat + 16384 * c.toNat + 2097152 * d.toNat) / 128 % 128 = b.toNat by omega,
    show (a.toNat + 128 * b.toNat + 16384 * c.toNat + 2097152 * d.toNat) / 128 / 128 % 128 = c.toNat by omega,
    show (a.toNat + 128 * b.toNat + 16384 * c.toNat + 2097152 * d.toNat) / 128 / 128 / 128 % 128 = d.toNat by omega]
  simp only [BitVec.ofNat_toNat]
  simp

/-- A two digit number is read at a position exactly if its digits are there. -/
theorem uint14_iff {s : Sysex} (h7 : Seven s) {pos n : Nat} :
    (∃ l, s.makeUint14 pos = .ok l ∧ l.toNat = n) ↔ n < 128 ^ 2 ∧ ∃ rest, s.data.drop pos = le7 2 n ++ rest := by
  rw [makeUint14_drop]
  constructor
  · rintro ⟨l, h, rfl⟩
    match hd : s.data.drop pos with
    | [] => rw [hd] at h; cases h
    | [_] => rw [hd] at h; cases h
    | a :: b :: r =>
      rw [hd] at h
      injection h with h
      have ha : a.toNat < 128 := h7 a (List.mem_of_mem_drop (i := pos) (by rw [hd]; simp))
      have hb : b.toNat < 128 := h7 b (List.mem_of_mem_drop (i := pos) (by rw [hd]; simp))
      rw [← h, two14 a b ha hb]
      exact ⟨by omega, r, by rw [le7_two ha hb]; rfl⟩
  · rintro ⟨hn, r, hd⟩
    rw [hd]
    refine ⟨_, rfl, ?_⟩
    rw [two14 _ _ (by rw [BitVec.toNat_ofNat]; omega) (by rw [BitVec.toNat_ofNat]; omega), BitVec.toNat_ofNat,
      BitVec.toNat_ofNat]
    omega

theorem uint28_iff {s : Sysex} (h7 : Seven s) {pos n : Nat} :
    (∃ l, s.makeUint28 pos = .ok l ∧ l.toNat = n) ↔ n < 128 ^ 4 ∧ ∃ rest, s.data.drop pos = le7 4 n ++ rest := by
  rw [makeUint28_drop]
  constructor
  · rintro ⟨l, h, rfl⟩
    match hd : s.data.drop pos with
    | [] => rw [hd] at h; cases h
    | [_] => rw [hd] at h; cases h
    | [_, _] => rw [hd] at h; cases h
    | [_, _, _] => rw [hd] at h; cases h
    | a :: b :: c :: d :: r =>
      rw [hd] at h
      injection h with h
      have m (x : Byte) (hx : x ∈ a :: b :: c :: d :: r) : x.toNat < 128 :=
        h7 x (List.mem_of_mem_drop (i := pos) (by rw [hd]; exact hx))
      have ha := m a (by simp)
      have hb := m b (by simp)
      have hc := m c (by simp)
      have hd' := m d (by simp)
      rw [← h, four28 a b c d ha hb hc hd']
      exact ⟨by omega, r, by rw [le7_four ha hb hc hd']; rfl⟩
  · rintro ⟨hn, r, hd⟩
    rw [hd]
    refine ⟨_, rfl, ?_⟩
    have m (k : Nat) : (BitVec.ofNat 8 (k % 128)).toNat = k % 128 := by rw [BitVec.toNat_ofNat]; omega
    have m' (k : Nat) : (BitVec.ofNat 8 (k % 128)).toNat < 128 := by rw [m]; omega
    rw [four28 _ _ _ _ (m' _) (m' _) (m' _) (m' _), m, m, m, m]
    omega

/-- Fixed bytes, a size and as many bytes: the condition of `validate` with two digits. -/
theorem counted14_iff {s : Sysex} (h7 : Seven s) {n : Nat} {v : Byte} (hl : 12 ≤ s.data.length) :
    Counted n 2 v (s.data.drop 12) ↔ ∃ l, s.makeUint14 (12 + n) = .ok l ∧ 12 + n + 2 + l.toNat ≤ s.data.length := by
  constructor
  · rintro ⟨f, d, r, hp, hf, hd⟩
    obtain ⟨l, hl', e⟩ := (uint14_iff h7 (pos := 12 + n) (n := d.length)).2 ⟨hd, d ++ r, by
      rw [← List.drop_drop, hp]; simp [← hf]⟩
    refine ⟨l, hl', ?_⟩
    have := congrArg List.length hp
    simp [le7_length, hf] at this
    omega
  · rintro ⟨l, h, hlen⟩
    obtain ⟨hn, r, hr⟩ := (uint14_iff h7).1 ⟨l, h, rfl⟩
    have hrl := congrArg List.length hr
    simp only [List.length_drop, List.length_append, le7_length] at hrl
    refine ⟨(s.data.drop 12).take n, r.take l.toNat, r.drop l.toNat, ?_, by simp; omega, by simp; omega⟩
    rw [List.length_take, Nat.min_eq_left (by omega), List.append_assoc, List.append_assoc, List.take_append_drop, ← hr,
      ← List.drop_drop, List.take_append_drop]

theorem counted28_iff {s : Sysex} (h7 : Seven s) {n : Nat} {v : Byte} (hl : 12 ≤ s.data.length) :
    Counted n 4 v (s.data.drop 12) ↔ ∃ l, s.makeUint28 (12 + n) = .ok l ∧ 12 + n + 4 + l.toNat ≤ s.data.length := by
  constructor
  · rintro ⟨f, d, r, hp, hf, hd⟩
    obtain ⟨l, hl', e⟩ := (uint28_iff h7 (pos := 12 + n) (n := d.length)).2 ⟨hd, d ++ r, by
      rw [← List.drop_drop, hp]; simp [← hf]⟩
    refine ⟨l, hl', ?_⟩
    have := congrArg List.length hp
    simp [le7_length, hf] at this
    omega
  · rintro ⟨l, h, hlen⟩
    obtain ⟨hn, r, hr⟩ := (uint28_iff h7).1 ⟨l, h, rfl⟩
    have hrl := congrArg List.length hr
    simp only [List.length_drop, List.length_append, le7_length] at hrl
    refine ⟨(s.data.drop 12).take n, r.take l.toNat, r.drop l.toNat, ?_, by simp; omega, by simp; omega⟩
    rw [List.length_take, Nat.min_eq_left (by omega), List.append_assoc, List.append_assoc, List.take_append_drop, ← hr,
      ← List.drop_drop, List.take_append_drop]

end Midi.CI
