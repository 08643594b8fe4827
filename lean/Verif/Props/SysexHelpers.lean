import Verif.Props.SysexSend

/-!
# Properties C37, C38 and C53: integer fields, device identities and helpers of sysex messages
-/

namespace Midi
open Spec

theorem index_append_right (a b : List Byte) (i : Nat) (h : i < b.length) : index (a ++ b) (a.length + i) = .ok b[i] := by
  unfold index
  rw [dif_pos (by simp; omega)]
  simp [List.getElem_append_right]

theorem index_of_append {l a b c : List Byte} (hl : l = a ++ (b ++ c)) {i : Nat} (h : i < b.length) :
    index l (a.length + i) = .ok b[i] := by
  subst hl
  rw [index_append_right _ _ _ (by simp; omega)]
  simp [List.getElem_append_left, h]

/-! ## C37 -/

theorem join14 (v : U16) (h : v ≤ 16383) :
    (((v &&& 0x7F).setWidth 8 : Byte).setWidth 16 ||| ((((v >>> 7) &&& 0x7F).setWidth 8 : Byte).setWidth 16 <<< 7)) = v := by
  have h14 : v[14] = false ∧ v[15] = false := by
    constructor
    all_goals
      rw [← BitVec.getLsbD_eq_getElem, ← BitVec.testBit_toNat]
      apply Nat.testBit_lt_two_pow
      have : v.toNat ≤ 16383 := h
      omega
  bits [h14.1, h14.2]

theorem join28 (v : Word) (h : v ≤ 268435455) :
    (((v &&& 0x7F).setWidth 8 : Byte).setWidth 32 ||| ((((v >>> 7) &&& 0x7F).setWidth 8 : Byte).setWidth 32 <<< 7) |||
      ((((v >>> 14) &&& 0x7F).setWidth 8 : Byte).setWidth 32 <<< 14) |||
      ((((v >>> 21) &&& 0x7F).setWidth 8 : Byte).setWidth 32 <<< 21)) = v := by
  have h28 : v[28] = false ∧ v[29] = false ∧ v[30] = false ∧ v[31] = false := by
    refine ⟨?_, ?_, ?_, ?_⟩
    all_goals
      rw [← BitVec.getLsbD_eq_getElem, ← BitVec.testBit_toNat]
      apply Nat.testBit_lt_two_pow
      have : v.toNat ≤ 268435455 := h
      omega
  obtain ⟨a, b, c, d⟩ := h28
  bits [a, b, c, d]

theorem join32 (v : Word) :
    (((v &&& 0x7F).setWidth 8 : Byte).setWidth 32 ||| ((((v >>> 7) &&& 0x7F).setWidth 8 : Byte).setWidth 32 <<< 7) |||
      ((((v >>> 14) &&& 0x7F).setWidth 8 : Byte).setWidth 32 <<< 14) |||
      ((((v >>> 21) &&& 0x7F).setWidth 8 : Byte).setWidth 32 <<< 21) |||
      (((((v >>> 28) &&& 0x0F).setWidth 8 : Byte) &&& 0x0F).setWidth 32 <<< 28)) = v := by
  bits

theorem seven_of_word (w : Word) : ((w &&& 0x7F).setWidth 8 : Byte) < 0x80 := by
  rw [BitVec.lt_def, BitVec.toNat_setWidth, BitVec.toNat_and, show (0x7F : Word).toNat = 2 ^ 7 - 1 from rfl,
    Nat.and_two_pow_sub_one_eq_mod, show (0x80 : Byte).toNat = 128 from rfl]
  omega

theorem four_of_word (w : Word) : ((w &&& 0x0F).setWidth 8 : Byte) < 0x80 := by
  rw [BitVec.lt_def, BitVec.toNat_setWidth, BitVec.toNat_and, show (0x0F : Word).toNat = 2 ^ 4 - 1 from rfl,
    Nat.and_two_pow_sub_one_eq_mod, show (0x80 : Byte).toNat = 128 from rfl]
  omega

theorem seven_of_u16 (w : U16) : ((w &&& 0x7F).setWidth 8 : Byte) < 0x80 := by
  rw [BitVec.lt_def, BitVec.toNat_setWidth, BitVec.toNat_and, show (0x7F : U16).toNat = 2 ^ 7 - 1 from rfl,
    Nat.and_two_pow_sub_one_eq_mod, show (0x80 : Byte).toNat = 128 from rfl]
  omega

theorem addUint14_eq (s : Sysex) (v : U16) (h : v ≤ 16383) :
    s.addUint14 v = .ok { s with data := s.data ++ [(v &&& 0x7F).setWidth 8, ((v >>> 7) &&& 0x7F).setWidth 8] } := by
  unfold Sysex.addUint14; rw [assert_ok (by simpa using h)]; rfl

theorem addUint28_eq (s : Sysex) (v : Word) (h : v ≤ 268435455) :
    s.addUint28 v = .ok { s with data := s.data ++ [(v &&& 0x7F).setWidth 8, ((v >>> 7) &&& 0x7F).setWidth 8,
      ((v >>> 14) &&& 0x7F).setWidth 8, ((v >>> 21) &&& 0x7F).setWidth 8] } := by
  unfold Sysex.addUint28; rw [assert_ok (by simpa using h)]; rfl

/-- Reading a 14 bit value from anywhere in a message. -/
theorem makeUint14_at {s : Sysex} {a c : List Byte} {v : U16} (h : v ≤ 16383)
    (hd : s.data = a ++ ([(v &&& 0x7F).setWidth 8, ((v >>> 7) &&& 0x7F).setWidth 8] ++ c)) :
    s.makeUint14 a.length = .ok v := by
  unfold Sysex.makeUint14
  have i0 := index_of_append hd (i := 0) (by simp)
  have i1 := index_of_append hd (i := 1) (by simp)
  rw [assert_ok (by rw [hd]; simp), show a.length = a.length + 0 from rfl, i0, show a.length + 0 + 1 = a.length + 1 from rfl, i1]
  exact congrArg Except.ok (join14 v h)

/-- Reading a 28 bit value from anywhere in a message. -/
theorem makeUint28_at {s : Sysex} {a c : List Byte} {v : Word} (h : v ≤ 268435455)
    (hd : s.data = a ++ ([(v &&& 0x7F).setWidth 8, ((v >>> 7) &&& 0x7F).setWidth 8,
      ((v >>> 14) &&& 0x7F).setWidth 8, ((v >>> 21) &&& 0x7F).setWidth 8] ++ c)) :
    s.makeUint28 a.length = .ok v := by
  unfold Sysex.makeUint28
  have i0 := index_of_append hd (i := 0) (by simp)
  have i1 := index_of_append hd (i := 1) (by simp)
  have i2 := index_of_append hd (i := 2) (by simp)
  have i3 := index_of_append hd (i := 3) (by simp)
  rw [Nat.add_zero] at i0
  rw [assert_ok (by rw [hd]; simp), i0, i1, i2, i3]
  exact congrArg Except.ok (join28 v h)

/-- C37: adding a 14 bit value never fails, appends two 7 bit bytes, leaves everything before unchanged, and whatever
data is added later the value reads back from where it was added. -/
theorem C37_uint14 (s : Sysex) (v : U16) (hv : v.toNat < 2 ^ 14) :
    ∃ s' added, s.addUint14 v = .ok s' ∧ s'.manufacturerID = s.manufacturerID ∧ s'.data = s.data ++ added ∧
      added.length = 2 ∧ (∀ b ∈ added, b < 0x80) ∧
      ∀ (id : Word) (later : List Byte), Sysex.makeUint14 ⟨id, s'.data ++ later⟩ s.data.length = .ok v := by
  have hv' : v ≤ 16383 := by rw [BitVec.le_def, show (16383 : U16).toNat = 16383 from rfl]; omega
  refine ⟨_, _, addUint14_eq s v hv', rfl, rfl, rfl, ?_, ?_⟩
  · simp only [List.mem_cons, List.not_mem_nil, or_false]
    rintro b (rfl | rfl) <;> exact seven_of_u16 _
  · intro id later
    exact makeUint14_at (c := later) hv' (by simp)

example := C37_uint14 ⟨0x7E0000, [0x7F, 0x0D, 0x20, 2, 1, 2, 3, 4, 5, 6, 7, 8]⟩ 0x1234 (by decide)

/-- C37: the same for 28 bit values. -/
theorem C37_uint28 (s : Sysex) (v : Word) (hv : v.toNat < 2 ^ 28) :
    ∃ s' added, s.addUint28 v = .ok s' ∧ s'.manufacturerID = s.manufacturerID ∧ s'.data = s.data ++ added ∧
      added.length = 4 ∧ (∀ b ∈ added, b < 0x80) ∧
      ∀ (id : Word) (later : List Byte), Sysex.makeUint28 ⟨id, s'.data ++ later⟩ s.data.length = .ok v := by
  have hv' : v ≤ 268435455 := by rw [BitVec.le_def, show (268435455 : Word).toNat = 268435455 from rfl]; omega
  refine ⟨_, _, addUint28_eq s v hv', rfl, rfl, rfl, ?_, ?_⟩
  · simp only [List.mem_cons, List.not_mem_nil, or_false]
    rintro b (rfl | rfl | rfl | rfl) <;> exact seven_of_word _
  · intro id later
    exact makeUint28_at (c := later) hv' (by simp)

example := C37_uint28 ⟨0x7E0000, [0x7F, 0x0D, 0x20, 2, 1, 2, 3, 4, 5, 6, 7, 8]⟩ 0x1234567 (by decide)

/-- C37: the same for 32 bit values, for which there is no restriction. -/
theorem C37_uint32 (s : Sysex) (v : Word) :
    ∃ added, (s.addUint32 v).manufacturerID = s.manufacturerID ∧ (s.addUint32 v).data = s.data ++ added ∧
      added.length = 5 ∧ (∀ b ∈ added, b < 0x80) ∧
      ∀ (id : Word) (later : List Byte),
        Sysex.makeUint32 ⟨id, (s.addUint32 v).data ++ later⟩ s.data.length = .ok v := by
  refine ⟨_, rfl, rfl, rfl, ?_, ?_⟩
  · simp only [List.mem_cons, List.not_mem_nil, or_false]
    rintro b (rfl | rfl | rfl | rfl | rfl)
    all_goals first | exact seven_of_word _ | exact four_of_word _
  · intro id later
    have hd : ((s.addUint32 v).data ++ later) = s.data ++ ([(v &&& 0x7F).setWidth 8, ((v >>> 7) &&& 0x7F).setWidth 8,
      ((v >>> 14) &&& 0x7F).setWidth 8, ((v >>> 21) &&& 0x7F).setWidth 8, ((v >>> 28) &&& 0x0F).setWidth 8] ++ later) := by
      simp [Sysex.addUint32]
    unfold Sysex.makeUint32
    have i0 := index_of_append hd (i := 0) (by simp)
    have i1 := index_of_append hd (i := 1) (by simp)
    have i2 := index_of_append hd (i := 2) (by simp)
    have i3 := index_of_append hd (i := 3) (by simp)
    have i4 := index_of_append hd (i := 4) (by simp)
    rw [Nat.add_zero] at i0
    dsimp only
    rw [assert_ok (by rw [hd]; simp), i0, i1, i2, i3, i4]
    exact congrArg Except.ok (join32 v)

/-- C37: `add_uint7` appends the byte. -/
theorem C37_uint7 (s : Sysex) (v : Byte) (hv : v < 0x80) :
    s.addUint7 v = .ok { s with data := s.data ++ [v] } := by
  unfold Sysex.addUint7
  have h7 : v ≤ 127 ∧ v &&& 0x7F = v := by revert hv; revert v; decide +kernel
  rw [assert_ok (by simpa using h7.1)]
  simp only [ok_bind, h7.2, pure_eq_ok]

/-- C37: values that do not fit are refused by an assertion. -/
theorem C37_out_of_range (s : Sysex) :
    (∀ v : Byte, 2 ^ 7 ≤ v.toNat → s.addUint7 v = .error .assertFailed) ∧
    (∀ v : U16, 2 ^ 14 ≤ v.toNat → s.addUint14 v = .error .assertFailed) ∧
    (∀ v : Word, 2 ^ 28 ≤ v.toNat → s.addUint28 v = .error .assertFailed) := by
  refine ⟨?_, ?_, ?_⟩ <;> intro v h
  · unfold Sysex.addUint7; rw [assert_fail]; · rfl
    simp only [decide_eq_false_iff_not, BitVec.le_def, show (127 : Byte).toNat = 127 from rfl]; omega
  · unfold Sysex.addUint14; rw [assert_fail]; · rfl
    simp only [decide_eq_false_iff_not, BitVec.le_def, show (16383 : U16).toNat = 16383 from rfl]; omega
  · unfold Sysex.addUint28; rw [assert_fail]; · rfl
    simp only [decide_eq_false_iff_not, BitVec.le_def, show (268435455 : Word).toNat = 268435455 from rfl]; omega

example : (Sysex.mk 0x7E0000 [9]).addUint14 0x1234 = .ok ⟨0x7E0000, [9, 0x34, 0x24]⟩ := by rfl
example : (0x1234 : U16).toNat < 2 ^ 14 ∧ (0x0FEDCBA9 : Word).toNat < 2 ^ 28 := by decide

/-! ## C38 -/

/-- A device identity whose fields fit into the 7 bit bytes of a message. -/
def Spec.ValidIdentity (i : DeviceIdentity) : Prop :=
  i.manufacturer.toNat / 65536 < 128 ∧ i.manufacturer.toNat / 256 % 256 < 128 ∧ i.manufacturer.toNat % 256 < 128 ∧
    i.family.toNat < 2 ^ 14 ∧ i.model.toNat < 2 ^ 14 ∧ i.revision.toNat < 2 ^ 28

instance (i : DeviceIdentity) : Decidable (ValidIdentity i) := inferInstanceAs (Decidable (_ ∧ _))

theorem id_mask (w : Word) : w &&& 0xFF808080 = 0 ↔ (w.toNat < 2 ^ 24 ∧
    w.toNat / 65536 % 256 < 128 ∧ w.toNat / 256 % 256 < 128 ∧ w.toNat % 256 < 128) := by
  have b0 : ∀ b : Byte, (b &&& 0xFF = 0 ↔ b.toNat = 0) ∧ (b &&& 0x80 = 0 ↔ b.toNat < 128) := by decide +kernel
  have e : w &&& (0xFF808080 : Word) = wordOf (byteOf w 0 &&& 0xFF) (byteOf w 1 &&& 0x80) (byteOf w 2 &&& 0x80)
      (byteOf w 3 &&& 0x80) := by unfold wordOf byteOf; bits
  rw [e, show (0 : Word) = wordOf 0 0 0 0 by rfl, wordOf_inj, (b0 _).1, (b0 _).2, (b0 _).2, (b0 _).2, toNat_byteOf,
    toNat_byteOf, toNat_byteOf, toNat_byteOf]
  have := w.isLt
  constructor <;> intro h <;> omega

/-- The eleven bytes of a device identity. -/
theorem addDeviceIdentity_eq (s : Sysex) (i : DeviceIdentity) (h : ValidIdentity i) :
    s.addDeviceIdentity i = .ok { s with data := s.data ++
      ([((i.manufacturer >>> 16) &&& 0x7F).setWidth 8, ((i.manufacturer >>> 8) &&& 0x7F).setWidth 8,
        (i.manufacturer &&& 0x7F).setWidth 8] ++
       ([(i.family &&& 0x7F).setWidth 8, ((i.family >>> 7) &&& 0x7F).setWidth 8] ++
       ([(i.model &&& 0x7F).setWidth 8, ((i.model >>> 7) &&& 0x7F).setWidth 8] ++
       [(i.revision &&& 0x7F).setWidth 8, ((i.revision >>> 7) &&& 0x7F).setWidth 8,
      ((i.revision >>> 14) &&& 0x7F).setWidth 8, ((i.revision >>> 21) &&& 0x7F).setWidth 8]))) } := by
  obtain ⟨m1, m2, m3, hf, hm, hr⟩ := h
  have bit : ∀ (w : Word) (k : Nat), w.getLsbD k = decide (w.toNat / 2 ^ k % 2 = 1) := by
    intro w k; rw [← BitVec.testBit_toNat, Nat.testBit_eq_decide_div_mod_eq]
  have bit16 : ∀ (w : U16) (k : Nat), w.getLsbD k = decide (w.toNat / 2 ^ k % 2 = 1) := by
    intro w k; rw [← BitVec.testBit_toNat, Nat.testBit_eq_decide_div_mod_eq]
  have a1 : i.manufacturer &&& 0xFF808080 = 0 := (id_mask _).2 (by omega)
  have a2 : ∀ x : U16, x.toNat < 2 ^ 14 → x &&& 0xC000 = 0 := by
    intro x hx
    refine BitVec.eq_of_getLsbD_eq ?_
    intro k hk
    rw [BitVec.getLsbD_and, bit16 x]
    interval_cases k
    all_goals first | (simp; done) | (simp; omega)
  have a3 : i.revision &&& 0xF0000000 = 0 := by
    refine BitVec.eq_of_getLsbD_eq ?_
    intro k hk
    rw [BitVec.getLsbD_and, bit i.revision]
    interval_cases k
    all_goals first | (simp; done) | (simp; omega)
  unfold Sysex.addDeviceIdentity
  rw [assert_ok (by simpa using a1), assert_ok (by simpa using a2 _ hf), assert_ok (by simpa using a2 _ hm),
    assert_ok (by simpa using a3)]
  simp only [ok_bind]
  rw [addUint14_eq _ _ (by rw [BitVec.le_def, show (16383 : U16).toNat = 16383 from rfl]; omega)]
  simp only [ok_bind]
  rw [addUint14_eq _ _ (by rw [BitVec.le_def, show (16383 : U16).toNat = 16383 from rfl]; omega)]
  simp only [ok_bind]
  rw [addUint28_eq _ _ (by rw [BitVec.le_def, show (268435455 : Word).toNat = 268435455 from rfl]; omega)]
  simp

/-- Reading a device identity from anywhere in a message. -/
theorem makeDeviceIdentity_at {s : Sysex} {a c : List Byte} (i : DeviceIdentity) (h : ValidIdentity i)
    (hd : s.data = a ++
      ([((i.manufacturer >>> 16) &&& 0x7F).setWidth 8, ((i.manufacturer >>> 8) &&& 0x7F).setWidth 8,
        (i.manufacturer &&& 0x7F).setWidth 8] ++
       ([(i.family &&& 0x7F).setWidth 8, ((i.family >>> 7) &&& 0x7F).setWidth 8] ++
       ([(i.model &&& 0x7F).setWidth 8, ((i.model >>> 7) &&& 0x7F).setWidth 8] ++
       ([(i.revision &&& 0x7F).setWidth 8, ((i.revision >>> 7) &&& 0x7F).setWidth 8,
      ((i.revision >>> 14) &&& 0x7F).setWidth 8, ((i.revision >>> 21) &&& 0x7F).setWidth 8] ++ c))))) :
    s.makeDeviceIdentity a.length = .ok i := by
  obtain ⟨m1, m2, m3, hf, hm, hr⟩ := h
  unfold Sysex.makeDeviceIdentity
  have i0 := index_of_append hd (i := 0) (by simp)
  have i1 := index_of_append hd (i := 1) (by simp)
  have i2 := index_of_append hd (i := 2) (by simp)
  rw [Nat.add_zero] at i0
  rw [assert_ok (by rw [hd]; simp), i0, i1, i2]
  have f := makeUint14_at (s := s) (v := i.family) (by rw [BitVec.le_def, show (16383 : U16).toNat = 16383 from rfl]; omega)
    (a := a ++ [((i.manufacturer >>> 16) &&& 0x7F).setWidth 8, ((i.manufacturer >>> 8) &&& 0x7F).setWidth 8,
        (i.manufacturer &&& 0x7F).setWidth 8]) (by rw [hd]; simp; rfl)
  have m := makeUint14_at (s := s) (v := i.model) (by rw [BitVec.le_def, show (16383 : U16).toNat = 16383 from rfl]; omega)
    (a := a ++ [((i.manufacturer >>> 16) &&& 0x7F).setWidth 8, ((i.manufacturer >>> 8) &&& 0x7F).setWidth 8,
        (i.manufacturer &&& 0x7F).setWidth 8, (i.family &&& 0x7F).setWidth 8, ((i.family >>> 7) &&& 0x7F).setWidth 8])
    (by rw [hd]; simp; rfl)
  have r := makeUint28_at (s := s) (v := i.revision)
    (by rw [BitVec.le_def, show (268435455 : Word).toNat = 268435455 from rfl]; omega)
    (a := a ++ [((i.manufacturer >>> 16) &&& 0x7F).setWidth 8, ((i.manufacturer >>> 8) &&& 0x7F).setWidth 8,
        (i.manufacturer &&& 0x7F).setWidth 8, (i.family &&& 0x7F).setWidth 8, ((i.family >>> 7) &&& 0x7F).setWidth 8,
        (i.model &&& 0x7F).setWidth 8, ((i.model >>> 7) &&& 0x7F).setWidth 8]) (c := c) (by rw [hd]; simp)
  simp only [List.length_append, List.length_cons, List.length_nil] at f m r
  simp only [ok_bind]
  rw [f, m, r]
  simp only [ok_bind, pure_eq_ok, List.getElem_cons_zero, List.getElem_cons_succ]
  congr 1
  have hman : ((((i.manufacturer >>> 16) &&& 0x7F).setWidth 8 : Byte).setWidth 32 <<< 16 |||
      (((i.manufacturer >>> 8) &&& 0x7F).setWidth 8 : Byte).setWidth 32 <<< 8 |||
      ((i.manufacturer &&& 0x7F).setWidth 8 : Byte).setWidth 32 : Word) = i.manufacturer := by
    rw [id7_eq, id7_eq, id7_eq0]
    have e := toNat_wordOf 0 (BitVec.ofNat 8 (i.manufacturer.toNat / 2 ^ 16 % 128))
      (BitVec.ofNat 8 (i.manufacturer.toNat / 2 ^ 8 % 128)) (BitVec.ofNat 8 (i.manufacturer.toNat % 128))
    have w : wordOf 0 (BitVec.ofNat 8 (i.manufacturer.toNat / 2 ^ 16 % 128))
      (BitVec.ofNat 8 (i.manufacturer.toNat / 2 ^ 8 % 128)) (BitVec.ofNat 8 (i.manufacturer.toNat % 128)) =
      (BitVec.ofNat 8 (i.manufacturer.toNat / 2 ^ 16 % 128)).setWidth 32 <<< 16 |||
      (BitVec.ofNat 8 (i.manufacturer.toNat / 2 ^ 8 % 128)).setWidth 32 <<< 8 |||
      (BitVec.ofNat 8 (i.manufacturer.toNat % 128)).setWidth 32 := by
      unfold wordOf; simp
    rw [← w]
    apply BitVec.eq_of_toNat_eq
    rw [e, show BitVec.toNat (0 : Byte) = 0 from rfl]
    simp only [BitVec.toNat_ofNat]
    have := i.manufacturer.isLt
    omega
  rw [hman]

/-- C38: adding an in range device identity never fails, appends eleven 7 bit bytes to the data, and whatever is added
later it reads back from where it was added. -/
theorem C38_device_identity (s : Sysex) (i : DeviceIdentity) (h : ValidIdentity i) :
    ∃ s' added, s.addDeviceIdentity i = .ok s' ∧ s'.manufacturerID = s.manufacturerID ∧ s'.data = s.data ++ added ∧
      added.length = 11 ∧ (∀ b ∈ added, b < 0x80) ∧
      ∀ (id : Word) (later : List Byte), Sysex.makeDeviceIdentity ⟨id, s'.data ++ later⟩ s.data.length = .ok i := by
  refine ⟨_, _, addDeviceIdentity_eq s i h, rfl, rfl, rfl, ?_, ?_⟩
  · simp only [List.mem_cons, List.not_mem_nil, or_false, List.mem_append]
    rintro b ((rfl | rfl | rfl) | (rfl | rfl) | (rfl | rfl) | (rfl | rfl | rfl | rfl))
    exacts [seven_of_word _, seven_of_word _, seven_of_word _, seven_of_u16 _, seven_of_u16 _, seven_of_u16 _,
      seven_of_u16 _, seven_of_word _, seven_of_word _, seven_of_word _, seven_of_word _]
  · intro id later
    exact makeDeviceIdentity_at (c := later) i h (by simp)

example : ValidIdentity ⟨0x002109, 0x1801, 0x000B, 0x0FFFFFFF⟩ := by decide
example : (Sysex.mk 0x7E0000 [9]).addDeviceIdentity ⟨0x002109, 0x1801, 0x000B, 0x0FFFFFFF⟩ =
    .ok ⟨0x7E0000, [9, 0, 0x21, 0x09, 0x01, 0x30, 0x0B, 0x00, 0x7F, 0x7F, 0x7F, 0x7F]⟩ := by rfl

/-! ## C53 -/

theorem and80 (b : Byte) : (b &&& 0x80 ≠ 0) ↔ ¬ b.toNat < 128 := by revert b; decide +kernel

theorem is7bitLoop_iff (l : List Byte) : Sysex.is7bitLoop l = true ↔ ∀ b ∈ l, b.toNat < 128 := by
  induction l with
  | nil => simp [Sysex.is7bitLoop]
  | cons b l ih =>
    unfold Sysex.is7bitLoop
    by_cases h : b &&& 0x80 ≠ 0
    · rw [if_pos h]
      simp only [Bool.false_eq_true, List.mem_cons, false_iff]
      intro h'
      exact (and80 b).1 h (h' b (Or.inl rfl))
    · rw [if_neg h, ih]
      have : b.toNat < 128 := by
        rcases Nat.lt_or_ge b.toNat 128 with h' | h'
        · exact h'
        · exact absurd ((and80 b).2 (by omega)) h
      simp [this]

theorem is8bitLoop_not (l : List Byte) : Sysex.is8bitLoop l = !Sysex.is7bitLoop l := by
  induction l with
  | nil => rfl
  | cons b l ih =>
    unfold Sysex.is8bitLoop Sysex.is7bitLoop
    split
    · rfl
    · exact ih

/-- C53: `is_7bit()` holds if and only if all data bytes are below 0x80. -/
theorem C53_is_7bit (s : Sysex) : s.is7bit = true ↔ ∀ b ∈ s.data, b.toNat < 0x80 := is7bitLoop_iff s.data

/-- C53: `is_8bit()` holds if and only if some data byte is not below 0x80. -/
theorem C53_is_8bit (s : Sysex) : s.is8bit = true ↔ ∃ b ∈ s.data, 0x80 ≤ b.toNat := by
  unfold Sysex.is8bit
  rw [is8bitLoop_not, Bool.not_eq_true', ← Bool.not_eq_true, is7bitLoop_iff]
  simp

/-- C53: `empty()` holds if and only if there is neither a manufacturer id nor data. -/
theorem C53_empty (s : Sysex) : s.empty = true ↔ s.manufacturerID = 0 ∧ s.data = [] := by
  unfold Sysex.empty; simp

/-- C53: `clear()` makes a message empty. -/
theorem C53_clear (s : Sysex) : s.clear.empty = true := rfl

/-- C53: `==` holds if and only if id and data are the same, `!=` is its negation. -/
theorem C53_equality (s t : Sysex) : (s.eqv t = true ↔ s = t) ∧ s.neqv t = !s.eqv t := by
  constructor
  · cases s; cases t; simp [Sysex.eqv]
  · unfold Sysex.neqv Sysex.eqv; simp [bne, Bool.not_and]

/-- C53: `is_valid()` holds if and only if the manufacturer id consists of three 7 bit bytes and all data bytes are
7 bit. -/
theorem C53_is_valid (s : Sysex) : s.isValid = true ↔
    s.manufacturerID.toNat < 2 ^ 24 ∧ s.manufacturerID.toNat / 65536 % 256 < 128 ∧
    s.manufacturerID.toNat / 256 % 256 < 128 ∧ s.manufacturerID.toNat % 256 < 128 ∧ ∀ b ∈ s.data, b.toNat < 0x80 := by
  unfold Sysex.isValid
  rw [Bool.and_eq_true, beq_iff_eq, C53_is_7bit]
  rw [id_mask]
  simp only [and_assoc]

/-- C53: for a genuine manufacturer id `total_data_size()` is the number of bytes of the message between F0 and F7. -/
theorem C53_total_data_size (s : Sysex) (h : GenuineId s.manufacturerID) :
    s.totalDataSize = (idBytes7 s.manufacturerID ++ s.data).length := by
  rw [totalDataSize_genuine s h, List.length_append]

/-- C53: without manufacturer id it is the number of data bytes. -/
theorem C53_total_data_size_no_id (s : Sysex) (h : s.manufacturerID = 0) : s.totalDataSize = s.data.length := by
  unfold Sysex.totalDataSize; rw [if_neg (by simpa using h)]

example : (Sysex.mk 0x2109 [1, 2]).totalDataSize = 5 ∧ (Sysex.mk 0x410000 [1, 2]).totalDataSize = 3 := by decide

end Midi
