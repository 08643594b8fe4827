import Verif.Model.Release
import Verif.Lemmas.Sysex
import Verif.Lemmas.NameText

/-!
# Helper lemmas: the library without assertions
-/

namespace Midi
namespace Release
open Spec

/-! ## Bytes of a packet -/

theorem setByte_ok {p q : Packet} {b : Nat} {v : Byte} (h : p.setByte b v = .ok q) : setByte p b v = q := by
  unfold Packet.setByte at h; unfold setByte
  split at h
  · next hb => rw [if_pos hb]; exact Except.ok.inj h
  · cases h

theorem setByte_eq_ok (p : Packet) {b : Nat} (hb : b < 16) (v : Byte) : p.setByte b v = .ok (setByte p b v) := by
  rw [Packet.setByte_lt _ hb, setByte, if_pos hb]

theorem setByte7_eq_ok (p : Packet) {b : Nat} (hb : b < 16) (v : Byte) : p.setByte7 b v = .ok (setByte7 p b v) :=
  setByte_eq_ok p hb _

theorem byteAt_setByte (p : Packet) {b c : Nat} (hc : c < 16) (v : Byte) :
    (setByte p b v).byteAt c = if c = b then v else p.byteAt c := by
  unfold setByte
  split
  · next hb => exact Packet.byteAt_putByte _ hb hc _
  · next hb => rw [if_neg (by omega)]

theorem byteAt_setByte7 (p : Packet) {b c : Nat} (hc : c < 16) (v : Byte) :
    (setByte7 p b v).byteAt c = if c = b then v &&& 0x7F else p.byteAt c := byteAt_setByte p hc _

theorem byteAt_setGroup (p : Packet) (g : Byte) {c : Nat} (hc : c < 16) :
    (setGroup p g).byteAt c = if c = 0 then (p.byteAt 0 &&& 0xF0) ||| g else p.byteAt c := by
  rcases Nat.lt_or_ge c 4 with h4 | h4
  · interval_cases c <;> simp only [setGroup, Packet.byteAt, Packet.word] <;> simp (config := { decide := true }) only [if_true, if_false] <;> bits
  · rw [if_neg (by omega)]
    interval_cases c <;> rfl

theorem byteAt_setType (p : Packet) (t : Byte) {c : Nat} (hc : c < 16) :
    (setType p t).byteAt c = if c = 0 then (p.byteAt 0 &&& 0x0F) ||| (t <<< 4) else p.byteAt c := by
  rcases Nat.lt_or_ge c 4 with h4 | h4
  · interval_cases c <;> simp only [setType, Packet.byteAt, Packet.word] <;> simp (config := { decide := true }) only [if_true, if_false] <;> bits
  · rw [if_neg (by omega)]
    interval_cases c <;> rfl

theorem setGroup_eq_ok (p : Packet) {g : Byte} (h : g < 16) : p.setGroup g = .ok (setGroup p g) := Packet.setGroup_ok p h

theorem setType_eq_ok (p : Packet) {t : Byte} (h : t < 16) : p.setType t = .ok (setType p t) := Packet.setType_ok p h

theorem and15_lt : ∀ g : Byte, (g &&& 0x0F) < 16 := by decide +kernel

theorem setType_and (p : Packet) (t : Byte) : setType p (t &&& 0x0F) = setType p t := by
  apply Packet.ext_bytes
  intro c hc
  rw [byteAt_setType _ _ hc, byteAt_setType _ _ hc]
  split
  · bits
  · rfl

/-! ## Sysex packets -/

theorem makeSysex7_eq_ok (f : Format) {g : Byte} (h : g < 16) : Midi.makeSysex7 f g = .ok (makeSysex7 f g) :=
  setGroup_eq_ok _ h

theorem setGroup_setGroup (p : Packet) (g h : Byte) : setGroup (setGroup p (g &&& 0x0F)) h = setGroup p h := by
  apply Packet.ext_bytes
  intro c hc
  rw [byteAt_setGroup _ _ hc, byteAt_setGroup p h hc]
  by_cases h0 : c = 0
  · rw [if_pos h0, if_pos h0, byteAt_setGroup _ _ (by omega), if_pos rfl]; bits
  · rw [if_neg h0, if_neg h0, byteAt_setGroup _ _ hc, if_neg h0]

theorem makeSysex7_group (f : Format) (g : Byte) : makeSysex7 f g = setGroup (makeSysex7 f (g &&& 0x0F)) g :=
  (setGroup_setGroup _ g g).symm

theorem status_setGroup (p : Packet) (g : Byte) : (setGroup p g).status = p.status := by
  rw [Packet.status_eq, Packet.status_eq, byteAt_setGroup _ _ (by omega), if_neg (by omega)]

theorem setByte_setGroup (p : Packet) (g : Byte) {b : Nat} (hb : b ≠ 0) (v : Byte) :
    setByte (setGroup p g) b v = setGroup (setByte p b v) g := by
  apply Packet.ext_bytes
  intro c hc
  rw [byteAt_setByte _ hc, byteAt_setGroup _ _ hc, byteAt_setGroup _ _ hc, byteAt_setByte _ hc, byteAt_setByte _ (by omega)]
  by_cases h0 : c = 0
  · subst h0; rw [if_neg (by omega), if_pos rfl, if_pos rfl, if_neg (by omega)]
  · rw [if_neg h0, if_neg h0]

theorem addPayload7_setGroup (p : Packet) (g b : Byte) :
    sysex7AddPayloadByte (setGroup p g) b = setGroup (sysex7AddPayloadByte p b) g := by
  unfold sysex7AddPayloadByte sysex7SetPayloadSize setByte7
  simp only [sysex7PayloadSize, status_setGroup]
  rw [setByte_setGroup _ _ (by omega), status_setGroup, setByte_setGroup _ _ (by omega)]

theorem payloadSize7_setGroup (p : Packet) (g : Byte) : sysex7PayloadSize (setGroup p g) = sysex7PayloadSize p := by
  simp only [sysex7PayloadSize, status_setGroup]

theorem addPayload7_ok {p q : Packet} {b : Byte} (h : Midi.sysex7AddPayloadByte p b = .ok q) : sysex7AddPayloadByte p b = q := by
  unfold Midi.sysex7AddPayloadByte at h
  simp only at h
  by_cases hs : sysex7PayloadSize p < 6
  · rw [assert_ok (by simpa using hs), ok_bind, setByte7_eq_ok _ (by omega), ok_bind, Midi.sysex7SetPayloadSize,
      assert_ok (by simp; omega), ok_bind, setByte_eq_ok _ (by omega)] at h
    exact Except.ok.inj h
  · rw [assert_fail (by simpa using hs)] at h; cases h

theorem addPayload8_ok {p q : Packet} {b : Byte} (h : Midi.sysex8AddPayloadByte p b = .ok q) : sysex8AddPayloadByte p b = q := by
  unfold Midi.sysex8AddPayloadByte at h
  simp only at h
  by_cases hs : sysex8PayloadSize p < 13
  · rw [assert_ok (by simpa using hs), ok_bind, setByte_eq_ok _ (by omega), ok_bind, Midi.sysex8SetPayloadSize,
      assert_ok (by simp; omega), ok_bind, setByte_eq_ok _ (by omega)] at h
    exact Except.ok.inj h
  · rw [assert_fail (by simpa using hs)] at h; cases h

theorem bind_ok_split {α β : Type} {x : Except Fault α} {f : α → Except Fault β} {y : β} (h : (x >>= f) = .ok y) :
    ∃ a, x = .ok a ∧ f a = .ok y := by
  cases x with
  | error e => cases h
  | ok a => exact ⟨a, rfl, h⟩

/-! ## Sending sysex messages -/

theorem sendLoop7 (g : Byte) : ∀ (bs : List Byte) (p : Packet) (left : Nat) (l : List Packet) (r : Packet),
    Midi.sendSysex7Loop (g &&& 0x0F) p left bs = .ok (l, r) →
    sendSysex7Loop g (setGroup p g) left bs = (l.map (setGroup · g), setGroup r g)
  | [], p, left, l, r, h => by
    unfold Midi.sendSysex7Loop at h
    cases h; rfl
  | b :: bs, p, left, l, r, h => by
    rw [Midi.sendSysex7Loop] at h
    obtain ⟨q, hq, h⟩ := bind_ok_split h
    rw [sendSysex7Loop, addPayload7_setGroup, addPayload7_ok hq]
    simp only [payloadSize7_setGroup]
    by_cases h6 : sysex7PayloadSize q = 6
    · rw [if_pos h6] at h ⊢
      obtain ⟨q', hq', h⟩ := bind_ok_split h
      rw [makeSysex7_eq_ok _ (and15_lt g)] at hq'
      cases hq'
      obtain ⟨⟨l', r'⟩, hr, h⟩ := bind_ok_split h
      rw [makeSysex7_group, sendLoop7 g bs _ _ _ _ hr]
      cases h; rfl
    · rw [if_neg h6] at h ⊢
      exact sendLoop7 g bs _ _ _ _ h

theorem sendSysex7_map {s : Sysex} {g : Byte} {l : List Packet} (h : Midi.sendSysex7 s (g &&& 0x0F) = .ok l) :
    sendSysex7 s g = l.map (setGroup · g) := by
  unfold Midi.sendSysex7 at h
  obtain ⟨p0, h0, h⟩ := bind_ok_split h
  obtain ⟨p1, h1, h⟩ := bind_ok_split h
  obtain ⟨p2, h2, h⟩ := bind_ok_split h
  obtain ⟨⟨o, r⟩, h3, h⟩ := bind_ok_split h
  rw [makeSysex7_eq_ok _ (and15_lt g)] at h0
  have e0 := (Except.ok.inj h0).symm
  have e1 := addPayload7_ok h1
  have e2 : (if s.manufacturerID &&& 0x00FFFF ≠ 0 then
      sysex7AddPayloadByte (sysex7AddPayloadByte p1 (((s.manufacturerID >>> 8) &&& 0x7F).setWidth 8))
        ((s.manufacturerID &&& 0x7F).setWidth 8) else p1) = p2 := by
    by_cases hm : s.manufacturerID &&& 0x00FFFF ≠ 0
    · rw [if_pos hm] at h2 ⊢
      obtain ⟨q, hq, h2⟩ := bind_ok_split h2
      rw [addPayload7_ok hq, addPayload7_ok h2]
    · rw [if_neg hm] at h2 ⊢
      exact Except.ok.inj h2
  have e3 := sendLoop7 g _ _ _ _ _ h3
  have e4 : (if sysex7PayloadSize r ≠ 0 then o ++ [r] else o) = l := Except.ok.inj h
  unfold sendSysex7
  rw [makeSysex7_group, ← e0]
  have e2' : (if s.manufacturerID &&& 0x00FFFF ≠ 0 then
      sysex7AddPayloadByte (sysex7AddPayloadByte (setGroup p1 g) (((s.manufacturerID >>> 8) &&& 0x7F).setWidth 8))
        ((s.manufacturerID &&& 0x7F).setWidth 8) else setGroup p1 g) = setGroup p2 g := by
    rw [← e2]
    split
    · rw [addPayload7_setGroup, addPayload7_setGroup]
    · rfl
  simp only [addPayload7_setGroup, e1] at e2' ⊢
  simp only [e2', e3, payloadSize7_setGroup]
  rw [← e4]
  split
  · rw [List.map_append]; rfl
  · rfl

theorem sendLoop8 (st g : Byte) : ∀ (bs : List Byte) (p : Packet) (left : Nat) (l : List Packet) (r : Packet),
    Midi.sendSysex8Loop st g p left bs = .ok (l, r) → sendSysex8Loop st g p left bs = (l, r)
  | [], p, left, l, r, h => by
    unfold Midi.sendSysex8Loop at h
    cases h; rfl
  | b :: bs, p, left, l, r, h => by
    rw [Midi.sendSysex8Loop] at h
    obtain ⟨q, hq, h⟩ := bind_ok_split h
    rw [sendSysex8Loop, addPayload8_ok hq]
    by_cases h6 : sysex8PayloadSize q = 13
    · rw [if_pos h6] at h
      obtain ⟨⟨l', r'⟩, hr, h⟩ := bind_ok_split h
      simp only [if_pos h6]
      rw [sendLoop8 st g bs _ _ _ _ hr]
      cases h; rfl
    · rw [if_neg h6] at h
      simp only [if_neg h6]
      exact sendLoop8 st g bs _ _ _ _ h

theorem sendSysex8_ok {s : Sysex} {st g : Byte} {l : List Packet} (h : Midi.sendSysex8 s st g = .ok l) :
    sendSysex8 s st g = l := by
  unfold Midi.sendSysex8 at h
  obtain ⟨p2, h2, h⟩ := bind_ok_split h
  obtain ⟨⟨o, r⟩, h3, h⟩ := bind_ok_split h
  have e3 := sendLoop8 _ _ _ _ _ _ _ h3
  have e4 : (if sysex8PayloadSize r ≠ 0 then o ++ [r] else o) = l := Except.ok.inj h
  unfold sendSysex8
  by_cases hm : s.manufacturerID &&& 0x00FFFF ≠ 0
  · rw [if_pos hm] at h2
    obtain ⟨q, hq, h2⟩ := bind_ok_split h2
    simp only [if_pos hm]
    rw [addPayload8_ok hq, addPayload8_ok h2]
    simp only [e3]; exact e4
  · rw [if_neg hm] at h2
    obtain ⟨q, hq, h2⟩ := bind_ok_split h2
    simp only [if_neg hm]
    rw [addPayload8_ok hq, addPayload8_ok h2]
    simp only [e3]; exact e4

theorem payloadSize8_setGroup (p : Packet) (g : Byte) : sysex8PayloadSize (setGroup p g) = sysex8PayloadSize p := by
  simp only [sysex8PayloadSize, status_setGroup]

theorem addPayload8_any {p q : Packet} {b : Byte} (g : Byte) (h : Midi.sysex8AddPayloadByte p b = .ok q) :
    Midi.sysex8AddPayloadByte (setGroup p g) b = .ok (setGroup q g) := by
  have e := addPayload8_ok h
  unfold Midi.sysex8AddPayloadByte at h ⊢
  simp only [payloadSize8_setGroup] at h ⊢
  by_cases hs : sysex8PayloadSize p < 13
  · rw [assert_ok (by simpa using hs), ok_bind, setByte_eq_ok _ (by omega), ok_bind, Midi.sysex8SetPayloadSize,
      assert_ok (by simp; omega), ok_bind, setByte_eq_ok _ (by omega), ← e]
    congr 1
    unfold sysex8AddPayloadByte sysex8SetPayloadSize
    simp only
    rw [setByte_setGroup _ _ (by omega), status_setGroup, setByte_setGroup _ _ (by omega)]
  · rw [assert_fail (by simpa using hs)] at h; cases h

theorem makeSysex8_group (f : Format) (st g : Byte) : makeSysex8 f st g = setGroup (makeSysex8 f st (g &&& 0x0F)) g := by
  unfold makeSysex8 sysex8Packet setGroup
  simp only [Packet.mk.injEq, and_true]
  generalize f.status = x
  bits

theorem sendLoop8_any (st g : Byte) : ∀ (bs : List Byte) (p : Packet) (left : Nat) (l : List Packet) (r : Packet),
    Midi.sendSysex8Loop st (g &&& 0x0F) p left bs = .ok (l, r) →
    Midi.sendSysex8Loop st g (setGroup p g) left bs = .ok (l.map (setGroup · g), setGroup r g)
  | [], p, left, l, r, h => by
    unfold Midi.sendSysex8Loop at h
    cases h; rfl
  | b :: bs, p, left, l, r, h => by
    rw [Midi.sendSysex8Loop] at h
    obtain ⟨q, hq, h⟩ := bind_ok_split h
    rw [Midi.sendSysex8Loop, addPayload8_any g hq, ok_bind]
    simp only [payloadSize8_setGroup]
    by_cases h6 : sysex8PayloadSize q = 13
    · rw [if_pos h6] at h ⊢
      obtain ⟨⟨l', r'⟩, hr, h⟩ := bind_ok_split h
      rw [makeSysex8_group, sendLoop8_any st g bs _ _ _ _ hr]
      cases h; rfl
    · rw [if_neg h6] at h ⊢
      exact sendLoop8_any st g bs _ _ _ _ h

theorem sendSysex8_map {s : Sysex} {st g : Byte} {l : List Packet} (h : Midi.sendSysex8 s st (g &&& 0x0F) = .ok l) :
    Midi.sendSysex8 s st g = .ok (l.map (setGroup · g)) := by
  unfold Midi.sendSysex8 at h
  obtain ⟨p2, h2, h⟩ := bind_ok_split h
  obtain ⟨⟨o, r⟩, h3, h⟩ := bind_ok_split h
  have e3 := sendLoop8_any _ _ _ _ _ _ _ h3
  have e4 : (if sysex8PayloadSize r ≠ 0 then o ++ [r] else o) = l := Except.ok.inj h
  have e5 : (if sysex8PayloadSize (setGroup r g) ≠ 0 then o.map (setGroup · g) ++ [setGroup r g] else o.map (setGroup · g)) =
      l.map (setGroup · g) := by
    rw [← e4, payloadSize8_setGroup]
    split
    · rw [List.map_append]; rfl
    · rfl
  unfold Midi.sendSysex8
  rw [makeSysex8_group]
  by_cases hm : s.manufacturerID &&& 0x00FFFF ≠ 0
  · rw [if_pos hm] at h2
    obtain ⟨q, hq, h2⟩ := bind_ok_split h2
    simp only [if_pos hm]
    rw [addPayload8_any g hq, ok_bind, addPayload8_any g h2, ok_bind, e3, ok_bind]
    exact congrArg Except.ok e5
  · rw [if_neg hm] at h2
    obtain ⟨q, hq, h2⟩ := bind_ok_split h2
    simp only [if_neg hm]
    rw [addPayload8_any g hq, ok_bind, addPayload8_any g h2, ok_bind, e3, ok_bind]
    exact congrArg Except.ok e5

/-! ## Texts -/

theorem storeText_cut (set : Packet → Nat → Byte → Packet) (cset : Packet → Nat → Byte → Except Fault Packet)
    (hset : ∀ p b v, b < 16 → cset p b v = .ok (set p b v)) :
    ∀ (cs : List Byte) (p : Packet) (b : Nat), b < 16 →
      Midi.storeText cset p b (cs.take (16 - b)) = .ok (storeText set p b cs)
  | [], p, b, _ => by rw [List.take_nil]; rfl
  | c :: cs, p, b, hb => by
    obtain ⟨k, hk⟩ : ∃ k, 16 - b = k + 1 := ⟨15 - b, by omega⟩
    rw [hk, List.take_succ_cons, Midi.storeText, hset _ _ _ hb, ok_bind, storeText]
    by_cases h : b + 1 ≥ 16
    · rw [if_pos h]; simp only [if_pos h]; rfl
    · rw [if_neg h]; simp only [if_neg h]
      have := storeText_cut set cset hset cs (set p b c) (b + 1) (by omega)
      rwa [show 16 - (b + 1) = k by omega] at this

end Release
end Midi
