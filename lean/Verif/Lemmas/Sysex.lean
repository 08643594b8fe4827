import Verif.Lemmas.Messages
import Verif.Spec.Sysex

/-!
# Helper lemmas: sysex packets as byte lists
-/

namespace Midi
open Spec

/-- The packet with given bytes. -/
def mkBytes (f : Nat → Byte) : Packet :=
  ⟨wordOf (f 0) (f 1) (f 2) (f 3), wordOf (f 4) (f 5) (f 6) (f 7), wordOf (f 8) (f 9) (f 10) (f 11),
    wordOf (f 12) (f 13) (f 14) (f 15)⟩

theorem byteAt_mkBytes (f : Nat → Byte) {b : Nat} (hb : b < 16) : (mkBytes f).byteAt b = f b := by
  rw [Packet.byteAt_eq]
  interval_cases b <;> simp [mkBytes, Packet.word]

/-- The 7 bit sysex packet with given format, group and payload. -/
def mk7 (f : Format) (g : Byte) (pl : List Byte) : Packet :=
  mkBytes fun i => if i = 0 then 0x30 ||| g else if i = 1 then f.status + BitVec.ofNat 8 pl.length else pl.getD (i - 2) 0

/-- The 8 bit sysex packet with given format, group, stream id and payload. -/
def mk8 (f : Format) (s g : Byte) (pl : List Byte) : Packet :=
  mkBytes fun i => if i = 0 then 0x50 ||| g else if i = 1 then f.status + BitVec.ofNat 8 (pl.length + 1)
    else if i = 2 then s else pl.getD (i - 3) 0

theorem status_len_facts (f : Format) : ∀ n, n ≤ 14 →
    (f.status + BitVec.ofNat 8 n).toNat / 16 = f.code.toNat ∧ (f.status + BitVec.ofNat 8 n).toNat % 16 = n ∧
    ((f.status + BitVec.ofNat 8 n) &&& 0x0F).toNat = n ∧ (f.status + BitVec.ofNat 8 n) &&& 0xF0 = f.status ∧
    (BitVec.ofNat 8 n &&& 0x0F) = BitVec.ofNat 8 n ∧
    Format.ofCode (((f.status + BitVec.ofNat 8 n) >>> 4) &&& 3) = f := by
  intro n hn
  interval_cases n <;> cases f <;> decide

theorem hi3 {g : Byte} (hg : g < 16) : (0x30 ||| g).toNat / 16 = 3 ∧ (0x30 ||| g) &&& 0x0F = g ∧
    (0x30 ||| g).toNat % 16 = g.toNat ∧ (0x30 ||| g) >>> 4 = (3 : Byte) := by
  revert hg; revert g; decide +kernel

theorem hi5 {g : Byte} (hg : g < 16) : (0x50 ||| g).toNat / 16 = 5 ∧ (0x50 ||| g) &&& 0x0F = g ∧
    (0x50 ||| g).toNat % 16 = g.toNat ∧ (0x50 ||| g) >>> 4 = (5 : Byte) := by
  revert hg; revert g; decide +kernel

section mk7
variable (f : Format) (g : Byte) (pl : List Byte)

theorem byteAt_mk7_0 : (mk7 f g pl).byteAt 0 = 0x30 ||| g := by simp [mk7, byteAt_mkBytes]
theorem byteAt_mk7_1 : (mk7 f g pl).byteAt 1 = f.status + BitVec.ofNat 8 pl.length := by
  simp [mk7, byteAt_mkBytes]
theorem byteAt_mk7_data {i : Nat} (hi : i < 14) : (mk7 f g pl).byteAt (2 + i) = pl.getD i 0 := by
  rw [mk7, byteAt_mkBytes _ (by omega), if_neg (by omega), if_neg (by omega)]; congr 1; omega

theorem status_mk7 : (mk7 f g pl).status = f.status + BitVec.ofNat 8 pl.length := by
  rw [Packet.status_eq, byteAt_mk7_1]

variable {pl}
theorem payloadSize_mk7 (h : pl.length ≤ 6) : sysex7PayloadSize (mk7 f g pl) = pl.length := by
  rw [sysex7PayloadSize, status_mk7]; exact (status_len_facts f _ (by omega)).2.2.1

theorem payload7_mk7 (h : pl.length ≤ 6) : payload7 (mk7 f g pl) = pl := by
  rw [payload7, byteAt_mk7_1, (status_len_facts f _ (by omega)).2.1]
  apply List.ext_getElem
  · simp
  · intro i h1 h2
    simp only [List.getElem_map, List.getElem_range]
    rw [byteAt_mk7_data _ _ _ (by omega)]
    simp [h2]

theorem formatCode_mk7 (h : pl.length ≤ 6) : formatCode (mk7 f g pl) = f.code.toNat := by
  rw [formatCode, byteAt_mk7_1, (status_len_facts f _ (by omega)).1]

theorem sysex7Format_mk7 (h : pl.length ≤ 6) : sysex7Format (mk7 f g pl) = f := by
  rw [sysex7Format, status_mk7, (status_len_facts f _ (by omega)).2.2.2.2.2]

variable {g}
theorem isSysex7_mk7 (hg : g < 16) (h : pl.length ≤ 6) : IsSysex7 (mk7 f g pl) := by
  refine ⟨?_, ?_, ?_⟩
  · rw [byteAt_mk7_0, (hi3 hg).1]
  · rw [byteAt_mk7_1, (status_len_facts f _ (by omega)).1]; cases f <;> decide
  · rw [byteAt_mk7_1, (status_len_facts f _ (by omega)).2.1]; exact h

theorem groupOf_mk7 (hg : g < 16) : groupOf (mk7 f g pl) = g.toNat := by
  rw [groupOf, byteAt_mk7_0, (hi3 hg).2.2.1]

theorem makeSysex7_eq (hg : g < 16) : makeSysex7 f g = .ok (mk7 f g []) := by
  rw [makeSysex7, sysex7Packet, Packet.setGroup_ok _ hg]
  congr 1
  obtain ⟨h4, h5, h6, h7⟩ := lt16_bits hg
  cases f <;> (simp only [mk7, mkBytes, dataMessage, Format.status, Packet.mk.injEq]; refine ⟨?_, ?_, ?_, ?_⟩ <;> simp [wordOf]; bits [h4, h5, h6, h7])

theorem makeSysex7_fail (hg : ¬ g < 16) : makeSysex7 f g = .error .assertFailed := by
  rw [makeSysex7, sysex7Packet, Packet.setGroup_fail _ hg]

theorem addPayload_mk7 (h : pl.length < 6) (b : Byte) :
    sysex7AddPayloadByte (mk7 f g pl) b = .ok (mk7 f g (pl ++ [b &&& 0x7F])) := by
  have e := status_len_facts f pl.length (by omega)
  have e' := status_len_facts f (pl.length + 1) (by omega)
  unfold sysex7AddPayloadByte
  simp only [payloadSize_mk7 f g (Nat.le_of_lt h)]
  rw [assert_ok (by simpa using h)]
  simp only [ok_bind, Packet.setByte7, Packet.setByte_lt _ (show 2 + pl.length < 16 by omega), sysex7SetPayloadSize]
  rw [assert_ok (by simp; omega)]
  simp only [ok_bind, Packet.setByte_lt _ (show 1 < 16 by omega)]
  congr 1
  apply Packet.ext_bytes
  intro c hc
  rw [Packet.byteAt_putByte _ (by omega) hc, Packet.status_eq, Packet.byteAt_putByte _ (by omega) hc,
    Packet.byteAt_putByte_ne _ (by omega) (by omega) (by omega), byteAt_mk7_1, e.2.2.2.1, e'.2.2.2.2.1]
  by_cases h1 : c = 1
  · subst h1; simp [byteAt_mk7_1]
  · rw [if_neg h1]
    by_cases h0 : c = 0
    · subst h0; rw [if_neg (by omega), byteAt_mk7_0, byteAt_mk7_0]
    · obtain ⟨i, rfl⟩ : ∃ i, c = 2 + i := ⟨c - 2, by omega⟩
      rw [byteAt_mk7_data _ _ _ (by omega), byteAt_mk7_data _ _ _ (by omega)]
      simp only [List.getD_eq_getElem?_getD, List.getElem?_append]
      by_cases hi : i < pl.length
      · rw [if_neg (by omega), if_pos hi]
      · rw [if_neg hi]
        by_cases he : i = pl.length
        · subst he; simp
        · rw [if_neg (by omega)]
          rw [List.getElem?_eq_none (by omega), List.getElem?_eq_none (by simp; omega)]

end mk7

section mk8
variable (f : Format) (s g : Byte) (pl : List Byte)

theorem byteAt_mk8_0 : (mk8 f s g pl).byteAt 0 = 0x50 ||| g := by simp [mk8, byteAt_mkBytes]
theorem byteAt_mk8_1 : (mk8 f s g pl).byteAt 1 = f.status + BitVec.ofNat 8 (pl.length + 1) := by
  rw [mk8, byteAt_mkBytes _ (by omega)]; rfl
theorem byteAt_mk8_2 : (mk8 f s g pl).byteAt 2 = s := by
  rw [mk8, byteAt_mkBytes _ (by omega)]; rfl
theorem byteAt_mk8_data {i : Nat} (hi : i < 13) : (mk8 f s g pl).byteAt (3 + i) = pl.getD i 0 := by
  rw [mk8, byteAt_mkBytes _ (by omega), if_neg (by omega), if_neg (by omega), if_neg (by omega)]; congr 1; omega

theorem status_mk8 : (mk8 f s g pl).status = f.status + BitVec.ofNat 8 (pl.length + 1) := by
  rw [Packet.status_eq, byteAt_mk8_1]

variable {pl}
theorem payloadSize_mk8 (h : pl.length ≤ 13) : sysex8PayloadSize (mk8 f s g pl) = pl.length := by
  simp only [sysex8PayloadSize, status_mk8]
  rw [(status_len_facts f (pl.length + 1) (by omega)).2.2.1]; simp

theorem payload8_mk8 (h : pl.length ≤ 13) : payload8 (mk8 f s g pl) = pl := by
  rw [payload8, byteAt_mk8_1, (status_len_facts f (pl.length + 1) (by omega)).2.1]
  apply List.ext_getElem
  · simp
  · intro i h1 h2
    simp only [List.getElem_map, List.getElem_range]
    rw [byteAt_mk8_data _ _ _ _ (by omega)]
    simp [h2]

theorem formatCode_mk8 (h : pl.length ≤ 13) : formatCode (mk8 f s g pl) = f.code.toNat := by
  rw [formatCode, byteAt_mk8_1, (status_len_facts f _ (by omega)).1]

theorem sysex8Format_mk8 (h : pl.length ≤ 13) : sysex8Format (mk8 f s g pl) = f := by
  rw [sysex8Format, status_mk8, (status_len_facts f _ (by omega)).2.2.2.2.2]

theorem stream8_mk8 : stream8 (mk8 f s g pl) = s := byteAt_mk8_2 f s g pl

variable {g}
theorem isSysex8_mk8 (hg : g < 16) (h : pl.length ≤ 13) : IsSysex8 (mk8 f s g pl) := by
  refine ⟨?_, ?_, ?_, ?_⟩
  · rw [byteAt_mk8_0, (hi5 hg).1]
  · rw [byteAt_mk8_1, (status_len_facts f _ (by omega)).1]; cases f <;> decide
  · rw [byteAt_mk8_1, (status_len_facts f _ (by omega)).2.1]; omega
  · rw [byteAt_mk8_1, (status_len_facts f _ (by omega)).2.1]; omega

theorem groupOf_mk8 (hg : g < 16) : groupOf (mk8 f s g pl) = g.toNat := by
  rw [groupOf, byteAt_mk8_0, (hi5 hg).2.2.1]

theorem makeSysex8_eq (hg : g < 16) : makeSysex8 f s g = mk8 f s g [] := by
  obtain ⟨h4, h5, h6, h7⟩ := lt16_bits hg
  cases f <;> (simp only [mk8, mkBytes, makeSysex8, sysex8Packet, Format.status, Packet.mk.injEq]
               refine ⟨?_, ?_, ?_, ?_⟩ <;> simp [wordOf]; bits [h4, h5, h6, h7])

theorem addPayload_mk8 (h : pl.length < 13) (b : Byte) :
    sysex8AddPayloadByte (mk8 f s g pl) b = .ok (mk8 f s g (pl ++ [b])) := by
  have e := status_len_facts f (pl.length + 1) (by omega)
  have e' := status_len_facts f (pl.length + 1 + 1) (by omega)
  unfold sysex8AddPayloadByte
  simp only [payloadSize_mk8 f s g (Nat.le_of_lt h)]
  rw [assert_ok (by simpa using h)]
  simp only [ok_bind, Packet.setByte_lt _ (show 3 + pl.length < 16 by omega), sysex8SetPayloadSize]
  rw [assert_ok (by simp; omega)]
  simp only [ok_bind, Packet.setByte_lt _ (show 1 < 16 by omega)]
  congr 1
  apply Packet.ext_bytes
  intro c hc
  rw [Packet.byteAt_putByte _ (by omega) hc, Packet.status_eq, Packet.byteAt_putByte _ (by omega) hc,
    Packet.byteAt_putByte_ne _ (by omega) (by omega) (by omega), byteAt_mk8_1, e.2.2.2.1, e'.2.2.2.2.1]
  by_cases h1 : c = 1
  · subst h1; simp [byteAt_mk8_1]
  · rw [if_neg h1]
    by_cases h0 : c = 0
    · subst h0; rw [if_neg (by omega), byteAt_mk8_0, byteAt_mk8_0]
    · by_cases h2 : c = 2
      · subst h2; rw [if_neg (by omega), byteAt_mk8_2, byteAt_mk8_2]
      obtain ⟨i, rfl⟩ : ∃ i, c = 3 + i := ⟨c - 3, by omega⟩
      rw [byteAt_mk8_data _ _ _ _ (by omega), byteAt_mk8_data _ _ _ _ (by omega)]
      simp only [List.getD_eq_getElem?_getD, List.getElem?_append]
      by_cases hi : i < pl.length
      · rw [if_neg (by omega), if_pos hi]
      · rw [if_neg hi]
        by_cases he : i = pl.length
        · subst he; simp
        · rw [if_neg (by omega)]
          rw [List.getElem?_eq_none (by omega), List.getElem?_eq_none (by simp; omega)]

end mk8
end Midi
