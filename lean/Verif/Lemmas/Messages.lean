import Verif.Lemmas.Packet
import Verif.Model.Messages

/-!
# Helper lemmas: messages by their bytes
-/

namespace Midi
namespace Packet

@[simp] theorem type_wordOf (a b c d : Byte) (x y z : Word) : type ⟨wordOf a b c d, x, y, z⟩ = a >>> 4 := by
  rw [type_eq]; show byteOf _ 0 >>> 4 = _; simp [word]
@[simp] theorem group_wordOf (a b c d : Byte) (x y z : Word) : group ⟨wordOf a b c d, x, y, z⟩ = a &&& 0x0F := by
  rw [group_eq]; show byteOf _ 0 &&& _ = _; simp [word]
@[simp] theorem status_wordOf (a b c d : Byte) (x y z : Word) : status ⟨wordOf a b c d, x, y, z⟩ = b := by
  rw [status_eq]; show byteOf _ 1 = _; simp [word]
@[simp] theorem byte2_wordOf (a b c d : Byte) (x y z : Word) : byte2 ⟨wordOf a b c d, x, y, z⟩ = b := by
  rw [byte2_eq]; show byteOf _ 1 = _; simp [word]
@[simp] theorem byte3_wordOf (a b c d : Byte) (x y z : Word) : byte3 ⟨wordOf a b c d, x, y, z⟩ = c := by
  rw [byte3_eq]; show byteOf _ 2 = _; simp [word]
@[simp] theorem byte4_wordOf (a b c d : Byte) (x y z : Word) : byte4 ⟨wordOf a b c d, x, y, z⟩ = d := by
  rw [byte4_eq]; show byteOf _ 3 = _; simp [word]

/-- Every packet's first word by its fields. -/
theorem w0_eq (p : Packet) : p.w0 = wordOf (p.type <<< 4 ||| p.group) p.status p.byte3 p.byte4 := by
  rw [← byte0_eq, status_eq, byte3_eq, byte4_eq]
  exact (wordOf_byteOf p.w0).symm

/-- Packets of one word size compare equal if their header fields and bytes agree. -/
theorem w0_ext {p q : Packet} (ht : p.type = q.type) (hg : p.group = q.group) (hs : p.status = q.status)
    (h3 : p.byte3 = q.byte3) (h4 : p.byte4 = q.byte4) : p.w0 = q.w0 := by
  rw [w0_eq p, w0_eq q, ht, hg, hs, h3, h4]

end Packet

/-! Facts about single bytes -/

theorem and0F_lt (b : Byte) : b &&& 0x0F < 16 := by revert b; decide +kernel
theorem and0F_of_lt {b : Byte} (h : b < 16) : b &&& 0x0F = b := by revert h; revert b; decide +kernel
theorem and7F_lt (b : Byte) : b &&& 0x7F < 128 := by revert b; decide +kernel
theorem and7F_of_lt {b : Byte} (h : b < 128) : b &&& 0x7F = b := by revert h; revert b; decide +kernel
theorem typ_or (t g : Byte) (ht : t < 16) : (t <<< 4 ||| (g &&& 0x0F)) >>> 4 = t := by
  obtain ⟨a, b, c, d⟩ := lt16_bits ht
  bits [a, b, c, d]
theorem grp_or (t g : Byte) : (t <<< 4 ||| (g &&& 0x0F)) &&& 0x0F = g &&& 0x0F := by bits
theorem status_split (s : Byte) : (s &&& 0xF0) ||| (s &&& 0x0F) = s := by bits
theorem status_hi (s c : Byte) : ((s &&& 0xF0) ||| (c &&& 0x0F)) &&& 0xF0 = s &&& 0xF0 := by bits
theorem status_lo (s c : Byte) : ((s &&& 0xF0) ||| (c &&& 0x0F)) &&& 0x0F = c &&& 0x0F := by bits

theorem makeSystem_eq (g s a b : Byte) : makeSystem g s a b = ⟨wordOf ((1 : Byte) <<< 4 ||| (g &&& 0x0F)) s a b, 0, 0, 0⟩ := by
  simp only [makeSystem, wordOf, Packet.mk.injEq, and_true]; bits
theorem midi1Message_eq (g s a b : Byte) :
    midi1Message g s a b = ⟨wordOf ((2 : Byte) <<< 4 ||| (g &&& 0x0F)) s a b, 0, 0, 0⟩ := by
  simp only [midi1Message, wordOf, Packet.mk.injEq, and_true]; bits
theorem midi2Message_eq (g s c a b : Byte) (d : Word) :
    midi2Message g s c a b d =
      ⟨wordOf ((4 : Byte) <<< 4 ||| (g &&& 0x0F)) ((s &&& 0xF0) ||| (c &&& 0x0F)) a b, d, 0, 0⟩ := by
  simp only [midi2Message, wordOf, Packet.mk.injEq, and_true]; bits
theorem makeUtility_eq (s : Byte) (v : U16) :
    makeUtility s v = ⟨wordOf 0 s ((v >>> 8).setWidth 8) (v.setWidth 8), 0, 0, 0⟩ := by
  simp only [makeUtility, wordOf, Packet.mk.injEq, and_true]; bits

end Midi

namespace Midi
namespace Packet

/-! Header fields as numbers -/

theorem toNat_type (p : Packet) : p.type.toNat = p.w0.toNat / 2 ^ 28 := by
  have h := toNat_byteOf p.w0 0
  have e := congrArg BitVec.toNat (type_eq p)
  rw [BitVec.toNat_ushiftRight, Nat.shiftRight_eq_div_pow] at e
  rw [e]; show (byteOf p.w0 0).toNat / _ = _
  have := p.w0.isLt
  omega
theorem toNat_group (p : Packet) : p.group.toNat = p.w0.toNat / 2 ^ 24 % 16 := by
  have h := toNat_byteOf p.w0 0
  have hm : ∀ n : Nat, n &&& 15 = n % 16 := fun n => Nat.and_two_pow_sub_one_eq_mod n 4
  have e := congrArg BitVec.toNat (group_eq p)
  rw [BitVec.toNat_and] at e
  rw [e]; show (byteOf p.w0 0).toNat &&& 15 = _
  rw [hm]
  have := p.w0.isLt
  omega
theorem toNat_status (p : Packet) : p.status.toNat = p.w0.toNat / 2 ^ 16 % 256 := by
  rw [status_eq]; exact toNat_byteOf p.w0 1
theorem toNat_byte3 (p : Packet) : p.byte3.toNat = p.w0.toNat / 2 ^ 8 % 256 := by
  rw [byte3_eq]; exact toNat_byteOf p.w0 2
theorem toNat_byte4 (p : Packet) : p.byte4.toNat = p.w0.toNat % 256 := by
  rw [byte4_eq]; show (byteOf p.w0 3).toNat = _; simpa using toNat_byteOf p.w0 3

theorem type_eq_iff (p : Packet) (t : Byte) : p.type = t ↔ p.w0.toNat / 2 ^ 28 = t.toNat := by
  rw [← toNat_type]; exact ⟨congrArg _, BitVec.eq_of_toNat_eq⟩

end Packet

theorem toNat_and0F (b : Byte) : (b &&& 0x0F).toNat = b.toNat % 16 := by revert b; decide +kernel
theorem toNat_andF0 (b : Byte) : (b &&& 0xF0).toNat = b.toNat / 16 * 16 := by revert b; decide +kernel
theorem toNat_and7F (b : Byte) : (b &&& 0x7F).toNat = b.toNat % 128 := by revert b; decide +kernel
theorem toNat_or_disjoint {n : Nat} (x y : BitVec n) (h : x &&& y = 0#n) (hlt : x.toNat + y.toNat < 2 ^ n) :
    (x ||| y).toNat = x.toNat + y.toNat := by
  rw [← BitVec.add_eq_or_of_and_eq_zero x y h, BitVec.toNat_add, Nat.mod_eq_of_lt hlt]
theorem toNat_shl4 (t : Byte) (ht : t < 16) : (t <<< 4).toNat = t.toNat * 16 := by
  revert ht; revert t; decide +kernel
theorem toNat_typ (t g : Byte) (ht : t < 16) : (t <<< 4 ||| (g &&& 0x0F)).toNat = t.toNat * 16 + g.toNat % 16 := by
  have h : t.toNat < 16 := ht
  rw [toNat_or_disjoint _ _ (by bits) (by rw [toNat_shl4 t ht, toNat_and0F]; omega), toNat_shl4 t ht, toNat_and0F]
theorem toNat_stat (s c : Byte) : ((s &&& 0xF0) ||| (c &&& 0x0F)).toNat = s.toNat / 16 * 16 + c.toNat % 16 := by
  have h := s.isLt
  rw [toNat_or_disjoint _ _ (by bits) (by rw [toNat_andF0, toNat_and0F]; omega), toNat_andF0, toNat_and0F]
theorem toNat_of14 (a b : Byte) : ((a &&& 0x7F).setWidth 16 ||| ((b &&& 0x7F).setWidth 16 <<< 7) : U16).toNat =
    a.toNat % 128 + 128 * (b.toNat % 128) := by
  have h1 : ((a &&& 0x7F).setWidth 16 : U16).toNat = a.toNat % 128 := by revert a; decide +kernel
  have h2 : ((b &&& 0x7F).setWidth 16 <<< 7 : U16).toNat = 128 * (b.toNat % 128) := by revert b; decide +kernel
  rw [toNat_or_disjoint _ _ (by bits) (by rw [h1, h2]; omega), h1, h2]


/-! Fields of constructed messages -/

theorem type_midi1Message (g s a b : Byte) : (midi1Message g s a b).type = 2 := by
  rw [midi1Message_eq, Packet.type_wordOf]; exact typ_or 2 g (by decide)
theorem group_midi1Message (g s a b : Byte) : (midi1Message g s a b).group = g &&& 0x0F := by
  rw [midi1Message_eq, Packet.group_wordOf]; exact grp_or 2 g
theorem status_midi1Message (g s a b : Byte) : (midi1Message g s a b).status = s := by
  rw [midi1Message_eq, Packet.status_wordOf]
theorem byte3_midi1Message (g s a b : Byte) : (midi1Message g s a b).byte3 = a := by
  rw [midi1Message_eq, Packet.byte3_wordOf]
theorem byte4_midi1Message (g s a b : Byte) : (midi1Message g s a b).byte4 = b := by
  rw [midi1Message_eq, Packet.byte4_wordOf]
theorem type_midi2Message (g s c a b : Byte) (d : Word) : (midi2Message g s c a b d).type = 4 := by
  rw [midi2Message_eq, Packet.type_wordOf]; exact typ_or 4 g (by decide)
theorem group_midi2Message (g s c a b : Byte) (d : Word) : (midi2Message g s c a b d).group = g &&& 0x0F := by
  rw [midi2Message_eq, Packet.group_wordOf]; exact grp_or 4 g
theorem status_midi2Message (g s c a b : Byte) (d : Word) :
    (midi2Message g s c a b d).status = (s &&& 0xF0) ||| (c &&& 0x0F) := by
  rw [midi2Message_eq, Packet.status_wordOf]
theorem byte3_midi2Message (g s c a b : Byte) (d : Word) : (midi2Message g s c a b d).byte3 = a := by
  rw [midi2Message_eq, Packet.byte3_wordOf]
theorem byte4_midi2Message (g s c a b : Byte) (d : Word) : (midi2Message g s c a b d).byte4 = b := by
  rw [midi2Message_eq, Packet.byte4_wordOf]
theorem w1_midi2Message (g s c a b : Byte) (d : Word) : (midi2Message g s c a b d).w1 = d := rfl

end Midi
