import Verif.Lemmas.Release
import Verif.Props.SysexSend
import Verif.Props.Stream

/-!
# C87: builds without assertions

`Midi.Release.f` is the function `f` in a build with `NDEBUG`, `Midi.f` the one in a build with assertions. Most theorems say
that the former behaves like the latter does for the argument cut to its range: for arguments in range both builds thus agree.
-/

namespace Midi
open Spec

/-! ## Packets -/

/-- C87: `set_byte` stores the byte when the packet has such a byte and otherwise leaves the packet alone. -/
theorem C87_set_byte (p : Packet) (b : Nat) (v : Byte) :
    (b < 16 → p.setByte b v = .ok (Release.setByte p b v)) ∧ (16 ≤ b → Release.setByte p b v = p) ∧
    (b < 16 → p.setByte7 b v = .ok (Release.setByte7 p b v)) ∧ (16 ≤ b → Release.setByte7 p b v = p) := by
  refine ⟨fun h => Release.setByte_eq_ok p h v, fun h => ?_, fun h => Release.setByte7_eq_ok p h v, fun h => ?_⟩
  · exact if_neg (by omega)
  · exact if_neg (by omega)

example : Release.setByte ⟨0x20903C40, 0, 0, 0⟩ 3 0x7F = ⟨0x20903C7F, 0, 0, 0⟩ ∧
    Release.setByte ⟨0x20903C40, 0, 0, 0⟩ 16 0x7F = ⟨0x20903C40, 0, 0, 0⟩ := by decide

/-- C87: `get_byte` gives the byte when the packet has such a byte and otherwise reads outside of the packet. -/
theorem C87_get_byte_partial (p : Packet) (b : Nat) :
    (b < 16 → Release.getByte p b = p.getByte b) ∧ (16 ≤ b → Release.getByte p b = .error .outOfBounds) := by
  constructor
  · intro h; rw [Release.getByte, if_pos h, Packet.getByte, if_pos h]
  · intro h; exact if_neg (by omega)

/-- C87: `set_type` uses the lower four bits of its argument. -/
theorem C87_set_type (p : Packet) (t : Byte) : p.setType (t &&& 0x0F) = .ok (Release.setType p t) := by
  rw [Release.setType_eq_ok _ (Release.and15_lt t), Release.setType_and]

/-- C87: `set_group` uses the lower four bits of its argument for the group. Its upper four bits are, however, added to the
type of the packet, bit by bit. All other bytes stay. -/
theorem C87_set_group_partial (p : Packet) (g : Byte) :
    (g < 16 → p.setGroup g = .ok (Release.setGroup p g)) ∧
    (Release.setGroup p g).group.toNat = g.toNat % 16 ∧
    (Release.setGroup p g).type.toNat = p.type.toNat ||| (g.toNat / 16) ∧
    ∀ b, 0 < b → b < 16 → (Release.setGroup p g).byteAt b = p.byteAt b := by
  refine ⟨fun h => Release.setGroup_eq_ok p h, ?_, ?_, ?_⟩
  · rw [Packet.group_eq, Release.byteAt_setGroup _ _ (by omega), if_pos rfl]
    generalize p.byteAt 0 = x
    rw [show ((x &&& 0xF0 ||| g) &&& 0x0F) = g &&& 0x0F by bits]
    revert g; decide +kernel
  · rw [Packet.type_eq, Packet.type_eq, Release.byteAt_setGroup _ _ (by omega), if_pos rfl]
    generalize p.byteAt 0 = x
    rw [show ((x &&& 0xF0 ||| g) >>> 4) = (x >>> 4) ||| (g >>> 4) by bits, BitVec.toNat_or]
    congr 1
    rw [BitVec.toNat_ushiftRight, Nat.shiftRight_eq_div_pow]
  · intro b h0 hb
    rw [Release.byteAt_setGroup _ _ hb, if_neg (by omega)]

/-- C87: setting a group out of range turns a MIDI 1 note on into a message of another type. -/
theorem C87_group_corrupts_type : (⟨0x20903C40, 0, 0, 0⟩ : Packet).type = 2 ∧
    Release.setGroup ⟨0x20903C40, 0, 0, 0⟩ 0x15 = ⟨0x35903C40, 0, 0, 0⟩ ∧
    (Release.setGroup ⟨0x20903C40, 0, 0, 0⟩ 0x15).type = 3 := by decide

/-- C87: `channel()` is the lower four bits of the status byte, with any type of packet. -/
theorem C87_channel (p : Packet) : (Release.channel p).toNat = (p.byteAt 1).toNat % 16 ∧
    (p.hasChannel = true → p.channel = .ok (Release.channel p)) := by
  constructor
  · rw [Release.channel, Packet.byte2_eq]
    generalize p.byteAt 1 = x
    revert x; decide +kernel
  · intro h
    rw [Packet.channel, assert_ok h]; rfl

/-! ## Sysex packets -/

/-- C87: a sysex7 packet made for a group that is out of range has the lower four bits as its group. Its type is that of a
sysex7 packet only if the two uppermost bits of the group are zero. -/
theorem C87_make_sysex7_partial (f : Format) (g : Byte) :
    (g < 16 → makeSysex7 f g = .ok (Release.makeSysex7 f g)) ∧
    ((Release.makeSysex7 f g).type = 3 ↔ g < 0x40) ∧ (Release.makeSysex7 f g).group.toNat = g.toNat % 16 ∧
    ∀ b, 0 < b → b < 16 → (Release.makeSysex7 f g).byteAt b = if b = 1 then f.status else 0 := by
  refine ⟨fun h => Release.makeSysex7_eq_ok f h, ?_, (C87_set_group_partial _ g).2.1, ?_⟩
  · unfold Release.makeSysex7 Release.sysex7Packet
    rw [Packet.type_eq, Release.byteAt_setGroup _ _ (by omega), if_pos rfl,
      show (dataMessage f.status).byteAt 0 = 0x30 by cases f <;> decide]
    revert g; decide +kernel
  · intro b h0 hb
    unfold Release.makeSysex7 Release.sysex7Packet
    rw [(C87_set_group_partial _ g).2.2.2 b h0 hb]
    have all : ∀ f : Format, ∀ b : Fin 16, 0 < b.val → (dataMessage f.status).byteAt b.val = if b.val = 1 then f.status else 0 := by
      intro f; cases f <;> decide
    exact all f ⟨b, hb⟩ h0

example : Release.makeSysex7 .start 0x45 = ⟨0x75100000, 0, 0, 0⟩ := by decide

theorem nibbles_status : ∀ (x : Byte) (s : Nat), s < 16 → ((x &&& 0xF0) + (BitVec.ofNat 8 s &&& 0x0F)) &&& 0xF0 = x &&& 0xF0 ∧
    (((x &&& 0xF0) + (BitVec.ofNat 8 s &&& 0x0F)) &&& 0x0F).toNat = s := by
  decide +kernel

theorem ofNat_and15 (n : Nat) : (BitVec.ofNat 8 n &&& 0x0F) = (BitVec.ofNat 8 (n % 16) &&& 0x0F) := by
  apply BitVec.eq_of_toNat_eq
  rw [BitVec.toNat_and, BitVec.toNat_and, BitVec.toNat_ofNat, BitVec.toNat_ofNat]
  show n % 2 ^ 8 &&& (2 ^ 4 - 1) = n % 16 % 2 ^ 8 &&& (2 ^ 4 - 1)
  rw [Nat.and_two_pow_sub_one_eq_mod, Nat.and_two_pow_sub_one_eq_mod]
  omega

theorem sizeByte (x : Byte) (n : Nat) : ((x &&& 0xF0) + (BitVec.ofNat 8 n &&& 0x0F)) &&& 0xF0 = x &&& 0xF0 ∧
    (((x &&& 0xF0) + (BitVec.ofNat 8 n &&& 0x0F)) &&& 0x0F).toNat = n % 16 := by
  rw [ofNat_and15]
  exact nibbles_status x (n % 16) (by omega)

/-- C87: `set_payload_size` of a sysex7 packet stores the size modulo 16 and changes nothing else. -/
theorem C87_set_payload_size7 (p : Packet) (n : Nat) :
    (n ≤ 6 → sysex7SetPayloadSize p n = .ok (Release.sysex7SetPayloadSize p n)) ∧
    sysex7PayloadSize (Release.sysex7SetPayloadSize p n) = n % 16 ∧
    (Release.sysex7SetPayloadSize p n).byteAt 1 &&& 0xF0 = p.byteAt 1 &&& 0xF0 ∧
    ∀ b, b < 16 → b ≠ 1 → (Release.sysex7SetPayloadSize p n).byteAt b = p.byteAt b := by
  unfold Release.sysex7SetPayloadSize
  refine ⟨fun h => ?_, ?_, ?_, fun b hb h1 => ?_⟩
  · unfold sysex7SetPayloadSize
    rw [assert_ok (by simpa using h), ok_bind, Release.setByte_eq_ok _ (by omega)]
  · unfold sysex7PayloadSize
    rw [Packet.status_eq, Release.byteAt_setByte _ (by omega), if_pos rfl]
    exact (sizeByte _ n).2
  · rw [Release.byteAt_setByte _ (by omega), if_pos rfl, Packet.status_eq]
    exact (sizeByte _ n).1
  · rw [Release.byteAt_setByte _ hb, if_neg h1]

/-- C87: adding a byte to the payload of any packet, however full, keeps type, group and format of the packet and the payload
it has. The size is counted modulo 16. The byte is stored behind the payload if the packet has a byte there, and dropped if
not. -/
theorem C87_add_payload_byte7 (p : Packet) (v : Byte) :
    (sysex7PayloadSize p < 6 → sysex7AddPayloadByte p v = .ok (Release.sysex7AddPayloadByte p v)) ∧
    sysex7PayloadSize (Release.sysex7AddPayloadByte p v) = (sysex7PayloadSize p + 1) % 16 ∧
    (Release.sysex7AddPayloadByte p v).byteAt 0 = p.byteAt 0 ∧
    (Release.sysex7AddPayloadByte p v).byteAt 1 &&& 0xF0 = p.byteAt 1 &&& 0xF0 ∧
    ∀ b, 2 ≤ b → b < 16 → (Release.sysex7AddPayloadByte p v).byteAt b =
      if b = 2 + sysex7PayloadSize p then v &&& 0x7F else p.byteAt b := by
  have h0 := C87_set_payload_size7 (Release.setByte7 p (2 + sysex7PayloadSize p) v) (sysex7PayloadSize p + 1)
  obtain ⟨_, h1, h2, h3⟩ := h0
  refine ⟨fun h => ?_, h1, ?_, ?_, fun b hb hb' => ?_⟩
  · unfold sysex7AddPayloadByte
    simp only
    rw [assert_ok (by simpa using h), ok_bind, Release.setByte7_eq_ok _ (by omega), ok_bind, sysex7SetPayloadSize,
      assert_ok (by simp; omega), ok_bind, Release.setByte_eq_ok _ (by omega)]
    rfl
  · exact (h3 0 (by omega) (by omega)).trans (by rw [Release.byteAt_setByte7 _ (by omega), if_neg (by omega)])
  · exact h2.trans (by rw [Release.byteAt_setByte7 _ (by omega), if_neg (by omega)])
  · exact (h3 b hb' (by omega)).trans (Release.byteAt_setByte7 _ hb' _)

/-- C87: a sysex7 packet given more than six bytes is not taken for a sysex7 packet any more. -/
theorem C87_overfull_sysex7 (p : Packet) (v : Byte) (h : 6 ≤ sysex7PayloadSize p) (h' : sysex7PayloadSize p < 15) :
    isSysex7Packet (Release.sysex7AddPayloadByte p v) = false := by
  have h1 := (C87_add_payload_byte7 p v).2.1
  unfold isSysex7Packet
  unfold sysex7PayloadSize at h1 h h'
  rw [Bool.and_eq_false_iff]; right
  rw [decide_eq_false_iff_not, BitVec.le_def, h1]
  have : (6 : Byte).toNat = 6 := rfl
  omega

example : sysex7PayloadSize ⟨0x30067E01, 0x02030405, 0, 0⟩ = 6 ∧
    Release.sysex7AddPayloadByte ⟨0x30067E01, 0x02030405, 0, 0⟩ 0x86 = ⟨0x30077E01, 0x02030405, 0x06000000, 0⟩ := by decide

/-- C87: `set_payload_size` of a sysex8 packet stores the size, plus one for the stream id, modulo 16, and changes nothing
else. -/
theorem C87_set_payload_size8 (p : Packet) (n : Nat) :
    (n ≤ 13 → sysex8SetPayloadSize p n = .ok (Release.sysex8SetPayloadSize p n)) ∧
    sysex8PayloadSize (Release.sysex8SetPayloadSize p n) = (n + 1) % 16 - 1 ∧
    (Release.sysex8SetPayloadSize p n).byteAt 1 &&& 0xF0 = p.byteAt 1 &&& 0xF0 ∧
    ∀ b, b < 16 → b ≠ 1 → (Release.sysex8SetPayloadSize p n).byteAt b = p.byteAt b := by
  unfold Release.sysex8SetPayloadSize
  refine ⟨fun h => ?_, ?_, ?_, fun b hb h1 => ?_⟩
  · unfold sysex8SetPayloadSize
    rw [assert_ok (by simpa using h), ok_bind, Release.setByte_eq_ok _ (by omega)]
  · unfold sysex8PayloadSize
    rw [Packet.status_eq, Release.byteAt_setByte _ (by omega), if_pos rfl, (sizeByte _ (n + 1)).2]
    simp only; split <;> omega
  · rw [Release.byteAt_setByte _ (by omega), if_pos rfl, Packet.status_eq]
    exact (sizeByte _ (n + 1)).1
  · rw [Release.byteAt_setByte _ hb, if_neg h1]

/-- C87: adding a byte to the payload of any sysex8 packet, however full, keeps type, group, format and stream id of the packet
and the payload it has. -/
theorem C87_add_payload_byte8 (p : Packet) (v : Byte) :
    (sysex8PayloadSize p < 13 → sysex8AddPayloadByte p v = .ok (Release.sysex8AddPayloadByte p v)) ∧
    sysex8PayloadSize (Release.sysex8AddPayloadByte p v) = (sysex8PayloadSize p + 2) % 16 - 1 ∧
    (Release.sysex8AddPayloadByte p v).byteAt 0 = p.byteAt 0 ∧
    (Release.sysex8AddPayloadByte p v).byteAt 1 &&& 0xF0 = p.byteAt 1 &&& 0xF0 ∧
    (Release.sysex8AddPayloadByte p v).byteAt 2 = p.byteAt 2 ∧
    ∀ b, 3 ≤ b → b < 16 → (Release.sysex8AddPayloadByte p v).byteAt b =
      if b = 3 + sysex8PayloadSize p then v else p.byteAt b := by
  have h0 := C87_set_payload_size8 (Release.setByte p (3 + sysex8PayloadSize p) v) (sysex8PayloadSize p + 1)
  obtain ⟨_, h1, h2, h3⟩ := h0
  refine ⟨fun h => ?_, h1, ?_, ?_, ?_, fun b hb hb' => ?_⟩
  · unfold sysex8AddPayloadByte
    simp only
    rw [assert_ok (by simpa using h), ok_bind, Release.setByte_eq_ok _ (by omega), ok_bind, sysex8SetPayloadSize,
      assert_ok (by simp; omega), ok_bind, Release.setByte_eq_ok _ (by omega)]
    rfl
  · exact (h3 0 (by omega) (by omega)).trans (by rw [Release.byteAt_setByte _ (by omega), if_neg (by omega)])
  · exact h2.trans (by rw [Release.byteAt_setByte _ (by omega), if_neg (by omega)])
  · exact (h3 2 (by omega) (by omega)).trans (by rw [Release.byteAt_setByte _ (by omega), if_neg (by omega)])
  · exact (h3 b hb' (by omega)).trans (Release.byteAt_setByte _ hb' _)

example : Release.sysex8AddPayloadByte ⟨0x500E0001, 0x02030405, 0x06070809, 0x0A0B0C0D⟩ 0xFF =
    ⟨0x500F0001, 0x02030405, 0x06070809, 0x0A0B0C0D⟩ := by decide

/-! ## Sending sysex messages -/

/-- C87: for every message and every group, `send_sysex7` sends the packets it sends for the group cut to four bits, each with
the group set once more by `set_group`: see `C87_set_group_partial` for its type. -/
theorem C87_send_sysex7_partial (s : Sysex) (g : Byte) : ∃ ps, sendSysex7 s (g &&& 0x0F) = .ok ps ∧
    Release.sendSysex7 s g = ps.map fun p => Release.setGroup p g :=
  ⟨_, sendSysex7_any s (Release.and15_lt g), Release.sendSysex7_map (sendSysex7_any s (Release.and15_lt g))⟩

/-- C87: for every group in range, `send_sysex7` does the same in both builds. -/
theorem C87_send_sysex7_same (s : Sysex) (g : Byte) (hg : g < 16) : sendSysex7 s g = .ok (Release.sendSysex7 s g) := by
  have e : g &&& 0x0F = g := by revert g; decide +kernel
  obtain ⟨ps, h1, h2⟩ := C87_send_sysex7_partial s g
  rw [e] at h1
  rw [h1, h2]
  congr 1
  have ht : ∀ p ∈ ps, p.group = g ∧ Release.setGroup p g = p := by
    intro p hp
    rw [sendSysex7_any s hg] at h1
    rw [← Except.ok.inj h1] at hp
    obtain ⟨c, _, rfl⟩ := List.mem_map.1 hp
    have hg0 : (mk7 c.1 g c.2).byteAt 0 = 0x30 ||| g := byteAt_mk7_0 _ _ _
    constructor
    · rw [Packet.group_eq, hg0]; clear hp h1 h2 e hg0; revert g; decide +kernel
    · apply Packet.ext_bytes
      intro b hb
      rw [Release.byteAt_setGroup _ _ hb]
      split
      · next h => subst h; rw [hg0]; clear hp h1 h2 e hg0; revert g; decide +kernel
      · rfl
  exact (List.map_id' ps).symm.trans (List.map_congr_left fun p hp => (ht p hp).2.symm)

example := C87_send_sysex7_same ⟨0x7E0000, [0x7F, 0x0D, 0x20, 2, 1, 2, 3, 4, 5, 6, 7, 8]⟩ 5 (by decide)

/-- C87: for every message, stream and group in range, `send_sysex8` does the same in both builds. -/
theorem C87_send_sysex8 (s : Sysex) (st g : Byte) (hg : g < 16) : sendSysex8 s st g = .ok (Release.sendSysex8 s st g) := by
  have h := sendSysex8_any s st hg
  rw [h, Release.sendSysex8_ok h]

example := C87_send_sysex8 ⟨0x7E0000, [0x7F, 0x0D, 0x20, 2, 1, 2, 3, 4, 5, 6, 7, 8]⟩ 1 5 (by decide)

/-- C87: for every message, stream and group, `send_sysex8` does the same in both builds, as nothing is asserted: it sends the
packets it sends for the group cut to four bits, each with the group set once more by `set_group` of a build without assertions:
see `C87_set_group_partial` for its type. -/
theorem C87_send_sysex8_partial (s : Sysex) (st g : Byte) : ∃ ps, sendSysex8 s st (g &&& 0x0F) = .ok ps ∧
    sendSysex8 s st g = .ok (ps.map fun p => Release.setGroup p g) ∧
    Release.sendSysex8 s st g = ps.map fun p => Release.setGroup p g :=
  have h := sendSysex8_any s st (Release.and15_lt g)
  ⟨_, h, Release.sendSysex8_map h, Release.sendSysex8_ok (Release.sendSysex8_map h)⟩

example : sendSysex8 ⟨0x7D0000, [1, 2]⟩ 3 0x25 = .ok [⟨0x75050300, 0x7D010200, 0, 0⟩] := by decide

/-- C87: so the packets of `send_sysex8` are packets of type 5 only if the bits of the group beyond its lower four are among those
of the type, that is for groups below 16 and from 40h to 4Fh, 10h to 1Fh and 50h to 5Fh. -/
theorem C87_send_sysex8_type (s : Sysex) (st g : Byte) : ∃ ps, sendSysex8 s st g = .ok ps ∧
    ∀ p ∈ ps, p.group.toNat = g.toNat % 16 ∧ (p.type = 5 ↔ g.toNat / 16 ∈ [0, 1, 4, 5]) := by
  refine ⟨_, Release.sendSysex8_map (sendSysex8_any s st (Release.and15_lt g)), fun p hp => ?_⟩
  obtain ⟨q, hq, rfl⟩ := List.mem_map.1 hp
  refine ⟨(C87_set_group_partial q g).2.1, ?_⟩
  obtain ⟨c, _, rfl⟩ := List.mem_map.1 hq
  rw [Packet.type_eq, Release.byteAt_setGroup _ _ (by omega), if_pos rfl, byteAt_mk8_0]
  clear hp hq
  revert g; decide +kernel

example : ∃ ps, sendSysex8 ⟨0x7D0000, List.replicate 20 1⟩ 3 0x25 = .ok ps ∧ ps.map Packet.type = [7, 7] := ⟨_, rfl, by decide⟩

/-- C87: with a group out of range, `send_sysex7` sends packets that are no sysex packets. -/
theorem C87_send_sysex7_corrupts : Release.sendSysex7 ⟨0x7D0000, [1, 2]⟩ 0x40 = [⟨0x70037D01, 0x02000000, 0, 0⟩] := by decide

/-! ## Texts -/

/-- C87: texts are cut to the number of characters that fit into the packet. -/
theorem C87_texts_cut (f : Format) (fb : Byte) (n : List Byte) :
    makeEndpointName f (n.take 14) = .ok (Release.makeEndpointName f n) ∧
    makeFunctionBlockName f fb (n.take 13) = .ok (Release.makeFunctionBlockName f fb n) ∧
    (f ≠ .cont → makeProductInstanceId f (n.take 14) = .ok (Release.makeProductInstanceId f n)) := by
  refine ⟨?_, ?_, fun hf => ?_⟩
  · unfold makeEndpointName
    rw [assert_ok (by simp), ok_bind]
    exact Release.storeText_cut _ _ (fun p b v h => Release.setByte_eq_ok p h v) n _ 2 (by omega)
  · unfold makeFunctionBlockName
    rw [assert_ok (by simp), ok_bind, Release.setByte_eq_ok _ (by omega), ok_bind]
    exact Release.storeText_cut _ _ (fun p b v h => Release.setByte_eq_ok p h v) n _ 3 (by omega)
  · unfold makeProductInstanceId
    rw [assert_ok (by simp), ok_bind, assert_ok (by simpa using hf), ok_bind]
    exact Release.storeText_cut _ _ (fun p b v h => Release.setByte7_eq_ok p h v) n _ 2 (by omega)

example : Release.makeEndpointName .complete (List.replicate 20 0x41) = ⟨0xF0034141, 0x41414141, 0x41414141, 0x41414141⟩ := by
  decide

/-- C87: the same for texts in flex data messages. The channel is cut to four bits. -/
theorem C87_flex_text (g : Byte) (f : Format) (a : Address) (c bank st : Byte) (t : List Byte)
    (hf : f = .complete ∨ f = .fin ∨ 12 ≤ t.length) (ha : a = .channel ∨ c &&& 0x0F = 0) :
    makeFlexText g f a (c &&& 0x0F) bank st (t.take 12) = .ok (Release.makeFlexText g f a c bank st t) := by
  unfold makeFlexText
  rw [assert_ok (by simp), ok_bind,
    assert_ok (by rcases hf with h | h | h <;> simp [h])]
  rw [ok_bind]
  unfold flexMessage
  rw [assert_ok (by have := Release.and15_lt c; simp only [BitVec.lt_def, BitVec.le_def, decide_eq_true_eq] at *
                    have e : (15 : Byte).toNat = 15 := rfl
                    have e' : (16 : Byte).toNat = 16 := rfl
                    omega), ok_bind, assert_ok (by rw [Bool.or_eq_true, decide_eq_true_eq, decide_eq_true_eq]; exact ha), ok_bind]
  simp only [pure_eq_ok, ok_bind]
  have e : ∀ x : Byte, x &&& 0x0F &&& 0x0F = x &&& 0x0F := by decide +kernel
  rw [e]
  exact Release.storeText_cut _ _ (fun p b v h => Release.setByte_eq_ok p h v) t _ 4 (by omega)

example : Release.makeFlexText 0x13 .start .channel 0x25 1 2 (List.replicate 13 0x61) =
    ⟨0xD3450102, 0x61616161, 0x61616161, 0x61616161⟩ := by decide

/-- C87: a flex data message has type 13, the group and the channel cut to four bits, and all other values as given; for a group
address the channel is stored as well. -/
theorem C87_flex_message (g : Byte) (f : Format) (a : Address) (c bank st : Byte) (d1 d2 d3 : Word) :
    Release.flexMessage g f a c bank st d1 d2 d3 =
      ⟨wordOfBytes (0xD0 + BitVec.ofNat 8 (g.toNat % 16)) (BitVec.ofNat 8 (f.code.toNat * 64 + a.code.toNat * 16 + c.toNat % 16)) bank st,
        d1, d2, d3⟩ ∧
    (a = .channel ∨ c &&& 0x0F = 0 →
      makeFlexData (g &&& 0x0F) f a (c &&& 0x0F) bank st d1 d2 d3 = .ok (Release.flexMessage g f a c bank st d1 d2 d3)) := by
  have e : ∀ x : Byte, x &&& 0x0F &&& 0x0F = x &&& 0x0F := by decide +kernel
  constructor
  · have e1 : ∀ g : Byte, 0xD0 + BitVec.ofNat 8 (g.toNat % 16) = 0xD0 ||| (g &&& 0x0F) := by decide +kernel
    have e2 : (f.code.setWidth 32 <<< 6) ||| (a.code.setWidth 32 <<< 4) ||| (c &&& 0x0F).setWidth 32 =
        (BitVec.ofNat 8 (f.code.toNat * 64 + a.code.toNat * 16 + c.toNat % 16)).setWidth 32 := by
      cases f <;> cases a <;> (revert c; decide +kernel)
    rw [wordOfBytes_eq, e1]
    unfold Release.flexMessage
    rw [e2]
    generalize BitVec.ofNat 8 (f.code.toNat * 64 + a.code.toNat * 16 + c.toNat % 16) = x
    have e3 : ∀ g x bank st : Byte, (0xD0000000 ||| ((g &&& 0x0F).setWidth 32 <<< 24) ||| (x.setWidth 32 <<< 16) |||
        (bank.setWidth 32 <<< 8) ||| st.setWidth 32 : Word) = wordOf (0xD0 ||| (g &&& 0x0F)) x bank st := by
      intro g x bank st; unfold wordOf; bits
    rw [e3]
  · intro ha
    unfold makeFlexData flexMessage
    rw [assert_ok (by have := Release.and15_lt c; simp only [BitVec.lt_def, BitVec.le_def, decide_eq_true_eq] at *
                      have e : (15 : Byte).toNat = 15 := rfl
                      have e' : (16 : Byte).toNat = 16 := rfl
                      omega), ok_bind, assert_ok (by rw [Bool.or_eq_true, decide_eq_true_eq, decide_eq_true_eq]; exact ha), ok_bind, e, e]
    rfl

theorem sendNameRest_same (make : Format → List Byte → Except Fault Packet) (rmake : Format → List Byte → Packet) (n : Nat)
    (hn : 0 < n) (h : ∀ f t, t.length ≤ n → make f t = .ok (rmake f t)) :
    ∀ (fuel : Nat) (t : List Byte), t.length ≤ fuel → sendNameRest make n fuel t = .ok (Release.sendNameRest rmake n fuel t)
  | 0, t, ht => by
    rw [sendNameRest, h _ _ (by omega)]; rfl
  | fuel + 1, t, ht => by
    rw [sendNameRest, Release.sendNameRest]
    split
    · rw [h _ _ (by simp), ok_bind, sendNameRest_same make rmake n hn h fuel (t.drop n) (by simp; omega)]; rfl
    · rw [h _ _ (by omega)]; rfl

theorem endpointName_same (f : Format) (t : List Byte) (h : t.length ≤ 14) :
    makeEndpointName f t = .ok (Release.makeEndpointName f t) := by
  have := (C87_texts_cut f 0 t).1
  rwa [List.take_of_length_le h] at this

theorem blockName_same (fb : Byte) (f : Format) (t : List Byte) (h : t.length ≤ 13) :
    makeFunctionBlockName f fb t = .ok (Release.makeFunctionBlockName f fb t) := by
  have := (C87_texts_cut f fb t).2.1
  rwa [List.take_of_length_le h] at this

theorem productId_same (f : Format) (hf : f ≠ .cont) (t : List Byte) (h : t.length ≤ 14) :
    makeProductInstanceId f t = .ok (Release.makeProductInstanceId f t) := by
  have := (C87_texts_cut f 0 t).2.2 hf
  rwa [List.take_of_length_le h] at this

/-- C87: `send_endpoint_name` and `send_function_block_name` do the same in both builds for every name,
`send_product_instance_id` sends the first 16 characters of a longer id. -/
theorem C87_send_names (fb : Byte) (n : List Byte) :
    sendEndpointName n = .ok (Release.sendEndpointName n) ∧
    sendFunctionBlockName fb n = .ok (Release.sendFunctionBlockName fb n) ∧
    sendProductInstanceId (n.take 16) = .ok (Release.sendProductInstanceId n) := by
  refine ⟨?_, ?_, ?_⟩
  · unfold sendEndpointName Release.sendEndpointName
    split
    · rw [endpointName_same _ _ ‹_›]; rfl
    · rw [endpointName_same _ _ (by simp), ok_bind,
        sendNameRest_same _ _ _ (by omega) (fun f t h => endpointName_same f t h) _ _ (by simp)]; rfl
  · unfold sendFunctionBlockName Release.sendFunctionBlockName
    split
    · rw [blockName_same _ _ _ ‹_›]; rfl
    · rw [blockName_same _ _ _ (by simp), ok_bind,
        sendNameRest_same _ _ _ (by omega) (fun f t h => blockName_same fb f t h) _ _ (by simp)]; rfl
  · unfold sendProductInstanceId Release.sendProductInstanceId
    rw [assert_ok (by simp), ok_bind]
    by_cases h : n.length ≤ 14
    · rw [if_pos (by simp; omega), if_pos h, List.take_of_length_le (by omega), productId_same _ (by decide) _ h]; rfl
    · rw [if_neg (by simp; omega), if_neg h, productId_same _ (by decide) _ (by simp), ok_bind,
        productId_same _ (by decide) _ (by simp), List.take_take, List.drop_take, List.take_take]
      rfl

/-! ## Stream messages -/

theorem streamMessage_byte0 (st : Byte) : (streamMessage st .complete).byteAt 0 = 0xF0 := by
  simp only [streamMessage, Packet.byteAt, Packet.word, Format.code]; bits

/-- C87: the arguments of stream configuration and function block discovery messages are stored as they are. -/
theorem C87_stream_configuration (x e : Byte) :
    Release.makeStreamConfigurationRequest x e = packetOf [0xF0, 0x05, x, e] ∧
    Release.makeStreamConfigurationNotification x e = packetOf [0xF0, 0x06, x, e] ∧
    Release.makeFunctionBlockDiscovery x e = packetOf [0xF0, 0x10, x, e] ∧
    (x ≠ 0 → x < 3 → makeStreamConfigurationRequest x e = .ok (Release.makeStreamConfigurationRequest x e) ∧
      makeStreamConfigurationNotification x e = .ok (Release.makeStreamConfigurationNotification x e)) ∧
    (x = 0xFF ∨ x < 32 → makeFunctionBlockDiscovery x e = .ok (Release.makeFunctionBlockDiscovery x e)) := by
  have two : ∀ st : Byte, Release.setByte (Release.setByte (streamMessage st .complete) 2 x) 3 e = packetOf [0xF0, st, x, e] := by
    intro st
    rw [streamMessage_eq]
    apply Release.setByte_ok
    rw [Release.setByte_ok (setByte_packetOf _ 2 x (by omega) (by simp)), setByte_packetOf _ 3 _ (by omega) (by simp)]
    rfl
  refine ⟨two _, two _, two _, fun h0 h3 => ⟨?_, ?_⟩, fun h => ?_⟩
  · unfold makeStreamConfigurationRequest
    rw [assert_ok (by rw [Bool.and_eq_true, decide_eq_true_eq, decide_eq_true_eq]; exact ⟨h0, h3⟩), ok_bind]
    simp only [Release.setByte_eq_ok _ (show 2 < 16 by omega), Release.setByte_eq_ok _ (show 3 < 16 by omega), ok_bind]
    rfl
  · unfold makeStreamConfigurationNotification
    rw [assert_ok (by rw [Bool.and_eq_true, decide_eq_true_eq, decide_eq_true_eq]; exact ⟨h0, h3⟩), ok_bind]
    simp only [Release.setByte_eq_ok _ (show 2 < 16 by omega), Release.setByte_eq_ok _ (show 3 < 16 by omega), ok_bind]
    rfl
  · unfold makeFunctionBlockDiscovery
    rw [assert_ok (by rw [Bool.or_eq_true, decide_eq_true_eq, decide_eq_true_eq]; exact h), ok_bind]
    simp only [Release.setByte_eq_ok _ (show 2 < 16 by omega), Release.setByte_eq_ok _ (show 3 < 16 by omega), ok_bind]
    rfl

/-- C87: a function block info message uses the lower five bits of the function block and the lower two bits of the
direction. -/
theorem C87_function_block_info (fb d g n : Byte) (hd : d &&& 0x03 ≠ 0) :
    makeFunctionBlockInfo (fb &&& 0x1F) (d &&& 0x03) g n = .ok (Release.makeFunctionBlockInfo fb d g n) := by
  have e1 : ∀ x : Byte, x &&& 0x1F < 32 ∧ x &&& 0x1F &&& 0x1F = x &&& 0x1F := by decide +kernel
  have e2 : ∀ x : Byte, x &&& 0x03 ≠ 0 → (decide (x &&& 0x03 > 0) && decide (x &&& 0x03 < 4)) = true := by decide +kernel
  have e3 : ∀ x : Byte, x &&& 0x03 &&& 0x03 = x &&& 0x03 := by decide +kernel
  unfold makeFunctionBlockInfo Release.makeFunctionBlockInfo
  rw [assert_ok (decide_eq_true (e1 fb).1), ok_bind, assert_ok (e2 d hd), ok_bind]
  simp only [(e1 fb).2, e3, Release.setByte_eq_ok _ (show 2 < 16 by omega), Release.setByte_eq_ok _ (show 3 < 16 by omega),
    Release.setByte_eq_ok _ (show 4 < 16 by omega), Release.setByte_eq_ok _ (show 5 < 16 by omega), ok_bind]

/-- C87: so does the one with options, with the lower two bits of direction, MIDI 1 mode and user interface hint, as far as the
options then make sense. -/
theorem C87_function_block_info_options (fb : Byte) (o : FunctionBlockOptions) (g n : Byte) (hd : o.direction &&& 0x03 ≠ 0)
    (hm : o.midi1 &&& 0x03 ≠ 3) (hu : o.uiHint &&& 0x03 = 0 → o.uiHint = 0)
    (hh : o.uiHint = 0 ∨ o.direction &&& o.uiHint &&& 0x03 ≠ 0) :
    makeFunctionBlockInfoWith (fb &&& 0x1F)
      { o with direction := o.direction &&& 0x03, midi1 := o.midi1 &&& 0x03, uiHint := o.uiHint &&& 0x03 } g n =
      .ok (Release.makeFunctionBlockInfoWith fb o g n) := by
  have e1 : ∀ x : Byte, x &&& 0x1F < 32 ∧ x &&& 0x1F &&& 0x1F = x &&& 0x1F := by decide +kernel
  have e2 : ∀ x : Byte, x &&& 0x03 ≠ 0 → (decide (x &&& 0x03 > 0) && decide (x &&& 0x03 < 4)) = true := by decide +kernel
  have e3 : ∀ x : Byte, x &&& 0x03 &&& 0x03 = x &&& 0x03 ∧ x &&& 0x03 < 4 ∧ (x &&& 0x03 ≠ 3 → x &&& 0x03 < 3) := by
    decide +kernel
  obtain ⟨act, dir, m1, hint, ci, mx⟩ := o
  simp only at hd hm hu hh
  unfold makeFunctionBlockInfoWith Release.makeFunctionBlockInfoWith
  simp only
  rw [assert_ok (decide_eq_true (e1 fb).1), ok_bind, assert_ok (e2 dir hd), ok_bind,
    assert_ok (decide_eq_true ((e3 m1).2.2 hm)), ok_bind, assert_ok (decide_eq_true (e3 hint).2.1), ok_bind]
  have hint0 : (hint &&& 0x03 = 0) ↔ hint = 0 := ⟨hu, fun h => by rw [h]; rfl⟩
  have hlast : (decide (hint &&& 0x03 = 0) || (dir &&& 0x03 &&& (hint &&& 0x03)) != 0) = true := by
    rcases hh with h | h
    · rw [h]; rfl
    · have e4 : dir &&& 0x03 &&& (hint &&& 0x03) = dir &&& hint &&& 0x03 := by bits
      rw [e4, Bool.or_eq_true]; right; simpa using h
  rw [assert_ok hlast, ok_bind]
  have sel : (if hint &&& 0x03 ≠ 0 then hint &&& 0x03 else dir &&& 0x03) &&& 0x03 = (if hint ≠ 0 then hint else dir) &&& 0x03 := by
    by_cases h : hint = 0
    · rw [if_neg (by rw [not_not]; exact hint0.2 h), if_neg (by rw [not_not]; exact h), (e3 dir).1]
    · rw [if_pos (fun hc => h (hint0.1 hc)), if_pos h, (e3 hint).1]
  simp only [(e1 fb).2, sel, (e3 m1).1, (e3 dir).1, Release.setByte_eq_ok _ (show 2 < 16 by omega),
    Release.setByte_eq_ok _ (show 3 < 16 by omega), Release.setByte_eq_ok _ (show 4 < 16 by omega),
    Release.setByte_eq_ok _ (show 5 < 16 by omega), Release.setByte_eq_ok _ (show 6 < 16 by omega),
    Release.setByte_eq_ok _ (show 7 < 16 by omega), ok_bind]

example : Release.makeFunctionBlockInfo 0x25 0x07 0x13 0x21 = ⟨0xF0118533, 0x03010000, 0, 0⟩ := by decide

/-! ## Sysex messages -/

/-- C87: numbers added to a sysex7 message are cut to 7, 14 and 28 bits, data may be empty. -/
theorem C87_sysex7_add (s : Sysex) (a : Byte) (b : U16) (c : Word) (d : List Byte) :
    s.addUint7 (a &&& 0x7F) = .ok (Release.addUint7 s a) ∧
    s.addUint14 (b &&& 0x3FFF) = .ok (Release.addUint14 s b) ∧
    s.addUint28 (c &&& 0x0FFFFFFF) = .ok (Release.addUint28 s c) ∧
    (Release.addData s d).data = s.data ++ d ∧ (Release.addData s d).manufacturerID = s.manufacturerID ∧
    (d ≠ [] → s.addData d = .ok (Release.addData s d)) := by
  refine ⟨?_, ?_, ?_, rfl, rfl, fun h => ?_⟩
  · have e : ∀ x : Byte, x &&& 0x7F ≤ 127 ∧ x &&& 0x7F &&& 0x7F = x &&& 0x7F := by decide +kernel
    unfold Sysex.addUint7
    rw [assert_ok (decide_eq_true (e a).1), ok_bind, (e a).2]; rfl
  · have e : (b &&& 0x3FFF) ≤ 16383 := by
      rw [BitVec.le_def, BitVec.toNat_and]; exact Nat.and_le_right
    unfold Sysex.addUint14 Release.addUint14
    rw [assert_ok (decide_eq_true e), ok_bind,
      show (b &&& 0x3FFF) &&& 0x7F = b &&& 0x7F by bits,
      show ((b &&& 0x3FFF) >>> 7) &&& (0x7F : U16) = (b >>> 7) &&& 0x7F by bits]; rfl
  · have e : (c &&& 0x0FFFFFFF) ≤ 268435455 := by
      rw [BitVec.le_def, BitVec.toNat_and]; exact Nat.and_le_right
    unfold Sysex.addUint28 Release.addUint28
    rw [assert_ok (decide_eq_true e), ok_bind,
      show (c &&& 0x0FFFFFFF) &&& 0x7F = c &&& 0x7F by bits,
      show ((c &&& 0x0FFFFFFF) >>> 7) &&& (0x7F : Word) = (c >>> 7) &&& 0x7F by bits,
      show ((c &&& 0x0FFFFFFF) >>> 14) &&& (0x7F : Word) = (c >>> 14) &&& 0x7F by bits,
      show ((c &&& 0x0FFFFFFF) >>> 21) &&& (0x7F : Word) = (c >>> 21) &&& 0x7F by bits]; rfl
  · unfold Sysex.addData
    rw [assert_ok (by simpa using h)]; rfl

example : Release.addUint14 ⟨0x7E0000, [1]⟩ 0xC005 = ⟨0x7E0000, [1, 5, 0]⟩ := by decide

/-- C87: a device identity added to a sysex7 message is cut to 7 bits per byte of the manufacturer id, 14 bits for family and
model, 28 bits for the revision. -/
theorem C87_add_device_identity (s : Sysex) (i : DeviceIdentity) :
    s.addDeviceIdentity ⟨i.manufacturer &&& 0x007F7F7F, i.family &&& 0x3FFF, i.model &&& 0x3FFF, i.revision &&& 0x0FFFFFFF⟩ =
      .ok (Release.addDeviceIdentity s i) := by
  unfold Sysex.addDeviceIdentity Release.addDeviceIdentity
  simp only
  rw [assert_ok (by rw [beq_iff_eq]; bits), ok_bind, assert_ok (by rw [beq_iff_eq]; bits), ok_bind,
    assert_ok (by rw [beq_iff_eq]; bits), ok_bind, assert_ok (by rw [beq_iff_eq]; bits), ok_bind,
    show ((i.manufacturer &&& 0x007F7F7F) >>> 16) &&& (0x7F : Word) = (i.manufacturer >>> 16) &&& 0x7F by bits,
    show ((i.manufacturer &&& 0x007F7F7F) >>> 8) &&& (0x7F : Word) = (i.manufacturer >>> 8) &&& 0x7F by bits,
    show (i.manufacturer &&& 0x007F7F7F) &&& 0x7F = i.manufacturer &&& 0x7F by bits,
    (C87_sysex7_add _ 0 i.family 0 []).2.1, ok_bind, (C87_sysex7_add _ 0 i.model 0 []).2.1, ok_bind,
    (C87_sysex7_add _ 0 0 i.revision []).2.2.1]

theorem index_outOfBounds {l : List Byte} {i : Nat} (h : ¬ i < l.length) : index l i = .error .outOfBounds := by
  unfold index; rw [dif_neg h]

theorem index_lt {l : List Byte} {i : Nat} (h : i < l.length) : index l i = .ok l[i] := by
  unfold index; rw [dif_pos h]

/-- C87: numbers are read from a sysex7 message as with assertions if they are inside of the data, otherwise the vector is read
outside of its bounds. -/
theorem C87_sysex7_make_partial (s : Sysex) (pos : Nat) :
    Release.makeUint14 s pos = (if pos + 1 < s.data.length then s.makeUint14 pos else .error .outOfBounds) ∧
    Release.makeUint28 s pos = (if pos + 3 < s.data.length then s.makeUint28 pos else .error .outOfBounds) ∧
    Release.makeUint32 s pos = (if pos + 4 < s.data.length then s.makeUint32 pos else .error .outOfBounds) ∧
    Release.makeDeviceIdentity s pos =
      (if pos + 10 < s.data.length then s.makeDeviceIdentity pos else .error .outOfBounds) := by
  have fail : ∀ {α : Type} (i : Nat) (f : Byte → Except Fault α), (∀ x, f x = .error .outOfBounds) →
      (index s.data i >>= f) = .error .outOfBounds := by
    intro α i f h
    by_cases hi : i < s.data.length
    · rw [index_lt hi]; exact h _
    · rw [index_outOfBounds hi]; rfl
  have m14 : ∀ p, Release.makeUint14 s p = if p + 1 < s.data.length then s.makeUint14 p else .error .outOfBounds := by
    intro p
    split
    · next h => unfold Sysex.makeUint14; rw [assert_ok (by simpa using h)]; rfl
    · next h =>
      unfold Release.makeUint14
      refine fail _ _ fun _ => ?_
      rw [index_outOfBounds h]; rfl
  have m28 : ∀ p, Release.makeUint28 s p = if p + 3 < s.data.length then s.makeUint28 p else .error .outOfBounds := by
    intro p
    split
    · next h => unfold Sysex.makeUint28; rw [assert_ok (by simpa using h)]; rfl
    · next h =>
      unfold Release.makeUint28
      refine fail _ _ fun _ => fail _ _ fun _ => fail _ _ fun _ => ?_
      rw [index_outOfBounds h]; rfl
  refine ⟨m14 pos, m28 pos, ?_, ?_⟩
  · split
    · next h => unfold Sysex.makeUint32; rw [assert_ok (by simpa using h)]; rfl
    · next h =>
      unfold Release.makeUint32
      refine fail _ _ fun _ => fail _ _ fun _ => fail _ _ fun _ => fail _ _ fun _ => ?_
      rw [index_outOfBounds h]; rfl
  · unfold Release.makeDeviceIdentity
    split
    · next h =>
      unfold Sysex.makeDeviceIdentity
      rw [assert_ok (by simpa using h), ok_bind, m14, m14, m28, if_pos (by omega), if_pos (by omega), if_pos (by omega)]
    · next h =>
      refine fail _ _ fun _ => fail _ _ fun _ => fail _ _ fun _ => ?_
      rw [m28, if_neg (by omega)]
      have two : ∀ p, Release.makeUint14 s p = .error .outOfBounds ∨ ∃ x, Release.makeUint14 s p = .ok x := by
        intro p
        rw [m14]
        split
        · next hp =>
          right
          unfold Sysex.makeUint14
          rw [assert_ok (by simpa using hp), ok_bind, index_lt (by omega), ok_bind, index_lt (by omega)]
          exact ⟨_, rfl⟩
        · left; rfl
      rcases two (pos + 3) with h1 | ⟨x, h1⟩ <;> rw [h1]
      · rfl
      · rcases two (pos + 5) with h2 | ⟨y, h2⟩ <;> rw [ok_bind, h2] <;> rfl

/-! ## Universal sysex and MIDI-CI messages -/

/-- C87: the device id of a universal sysex message is cut to 7 bits; an empty message is written outside of its bounds. -/
theorem C87_set_device_id_partial (s : Sysex) (i : Byte) :
    Release.setDeviceId s i =
      if s.data = [] then .error .outOfBounds else UniversalSysex.Message.setDeviceId s (i &&& 0x7F) := by
  have e : ∀ x : Byte, x &&& 0x7F < 128 ∧ x &&& 0x7F &&& 0x7F = x &&& 0x7F := by decide +kernel
  unfold Release.setDeviceId CI.store UniversalSysex.Message.setDeviceId
  by_cases h : s.data = []
  · rw [if_pos h, if_neg (by rw [h]; simp)]
  · have hl : 0 < s.data.length := List.length_pos_iff.2 h
    rw [if_neg h, if_pos hl, assert_ok (by simpa using h), ok_bind, assert_ok (decide_eq_true (e i).1), ok_bind, (e i).2]
    rfl

/-- C87: the numbers of source and destination in a MIDI-CI message are cut to 28 bits. -/
theorem C87_ci_message (st : Byte) (src dst : Word) (dev : Byte) (hs : st ≤ 127) (hd : dev ≤ 127) :
    CI.makeMessage st (src &&& 0x0FFFFFFF) (dst &&& 0x0FFFFFFF) dev = .ok (Release.makeMessage st src dst dev) := by
  have e : ∀ c : Word, (c &&& 0x0FFFFFFF) ≤ 268435455 := by
    intro c; rw [BitVec.le_def, BitVec.toNat_and]; exact Nat.and_le_right
  have b0 : ∀ c : Word, (c &&& 0x0FFFFFFF) &&& 0x7F = c &&& 0x7F := by intro c; bits
  have b1 : ∀ c : Word, ((c &&& 0x0FFFFFFF) >>> 7) &&& (0x7F : Word) = (c >>> 7) &&& 0x7F := by intro c; bits
  have b2 : ∀ c : Word, ((c &&& 0x0FFFFFFF) >>> 14) &&& (0x7F : Word) = (c >>> 14) &&& 0x7F := by intro c; bits
  have b3 : ∀ c : Word, ((c &&& 0x0FFFFFFF) >>> 21) &&& (0x7F : Word) = (c >>> 21) &&& 0x7F := by intro c; bits
  unfold CI.makeMessage
  simp only
  rw [assert_ok (decide_eq_true hs), ok_bind, assert_ok (decide_eq_true (e src)), ok_bind, assert_ok (decide_eq_true (e dst)),
    ok_bind, assert_ok (decide_eq_true hd), ok_bind]
  unfold Release.makeMessage CI.headerBytes
  rw [b0, b1, b2, b3, b0, b1, b2, b3]; rfl

/-- C87: a device id that is out of range, however, is stored as it is: the message is not a valid 7 bit message. -/
theorem C87_ci_device_id (st : Byte) (src dst : Word) (dev : Byte) (hd : 127 < dev) :
    (Release.makeMessage st src dst dev).data.head? = some dev ∧ (Release.makeMessage st src dst dev).isValid = false := by
  refine ⟨rfl, ?_⟩
  unfold Sysex.isValid
  rw [Bool.and_eq_false_iff]; right
  have : ∀ x : Byte, 127 < x → x &&& 0x80 ≠ 0 := by decide +kernel
  show Sysex.is7bitLoop (dev :: _) = false
  unfold Sysex.is7bitLoop
  rw [if_pos (this dev hd)]

example : (Release.makeMessage 0x70 0xF1234567 0x0FFFFFFF 0x90).data =
    [0x90, 0x0D, 0x70, 2, 0x67, 0x0A, 0x0D, 0x09, 0x7F, 0x7F, 0x7F, 0x7F] := by decide

/-- C87: setting source or destination of a message cuts to 28 bits; the twelve bytes of the header have to be there. -/
theorem C87_set_muid_partial (s : Sysex) (m : Word) :
    Release.setSourceMuid s m = CI.Message.setSourceMuid s (m &&& 0x0FFFFFFF) ∧
    Release.setDestinationMuid s m = CI.Message.setDestinationMuid s (m &&& 0x0FFFFFFF) ∧
    (s.data.length < 8 → Release.setSourceMuid s m = .error .outOfBounds) ∧
    (s.data.length < 12 → Release.setDestinationMuid s m = .error .outOfBounds) := by
  have e : (m &&& 0x0FFFFFFF) ≤ 268435455 := by
    rw [BitVec.le_def, BitVec.toNat_and]; exact Nat.and_le_right
  have b0 : (m &&& 0x0FFFFFFF) &&& 0x7F = m &&& 0x7F := by bits
  have b1 : ((m &&& 0x0FFFFFFF) >>> 7) &&& (0x7F : Word) = (m >>> 7) &&& 0x7F := by bits
  have b2 : ((m &&& 0x0FFFFFFF) >>> 14) &&& (0x7F : Word) = (m >>> 14) &&& 0x7F := by bits
  have b3 : ((m &&& 0x0FFFFFFF) >>> 21) &&& (0x7F : Word) = (m >>> 21) &&& 0x7F := by bits
  have fail : ∀ (t : Sysex) (i : Nat) (x : Byte) (f : Sysex → Except Fault Sysex),
      (∀ y : Sysex, y.data.length = t.data.length → f y = .error .outOfBounds) → (CI.store t i x >>= f) = .error .outOfBounds := by
    intro t i x f h
    unfold CI.store
    split
    · exact h _ (by simp)
    · rfl
  refine ⟨?_, ?_, fun h => ?_, fun h => ?_⟩
  · unfold Release.setSourceMuid CI.Message.setSourceMuid
    rw [assert_ok (decide_eq_true e), ok_bind, b0, b1, b2, b3]
  · unfold Release.setDestinationMuid CI.Message.setDestinationMuid
    rw [assert_ok (decide_eq_true e), ok_bind, b0, b1, b2, b3]
  · unfold Release.setSourceMuid
    refine fail _ _ _ _ fun y hy => fail _ _ _ _ fun z hz => fail _ _ _ _ fun w hw => ?_
    unfold CI.store; rw [if_neg (by omega)]
  · unfold Release.setDestinationMuid
    refine fail _ _ _ _ fun y hy => fail _ _ _ _ fun z hz => fail _ _ _ _ fun w hw => ?_
    unfold CI.store; rw [if_neg (by omega)]

end Midi
