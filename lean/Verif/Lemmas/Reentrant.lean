import Verif.Lemmas.StreamInv
import Verif.Spec.Reentrant

/-!
# Helper lemmas: callbacks that use the parser
-/

namespace Midi
open Spec Parser

/-! ## Without event nothing is different -/

theorem call_off {s : Parser} (h : s.invokeCallbacks = false) (e : Event) (r : Reaction) : s.call e r = .ok (s, []) := by
  unfold Parser.call; rw [if_neg (by simp [h])]; rfl

theorem call_on {s : Parser} (h : s.invokeCallbacks = true) (e : Event) (r : Reaction) :
    s.call e r = (r s).map fun x => (x.1, e :: x.2) := by
  unfold Parser.call; rw [if_pos h]; cases r s <;> rfl

theorem post_off {s : Parser} (h : s.invokeCallbacks = false) (p : Packet) : s.post p = [] := by simp [post, h]
theorem post_on {s : Parser} (h : s.invokeCallbacks = true) (p : Packet) : s.post p = [.packet p] := by simp [post, h]

theorem post_nil {s : Parser} {p : Packet} (h : s.post p = []) : s.invokeCallbacks = false := by
  cases hi : s.invokeCallbacks
  · rfl
  · rw [post_on hi] at h; simp at h

theorem systemRealtimeR_silent {p p' : Parser} {b : Byte} (h : p.systemRealtime b = (p', [])) (r : Reaction) :
    p.systemRealtimeR b r = .ok (p', []) := by
  unfold systemRealtime at h
  unfold systemRealtimeR
  split at h
  · next hb => rw [if_pos hb, ← h]; rfl
  · next hb =>
    simp only [Prod.mk.injEq] at h
    rw [if_neg hb, call_off (post_nil h.2), h.1]

theorem systemCommonR_silent {p p' : Parser} {b : Byte} (h : p.systemCommon b = (p', [])) (r : Reaction) :
    p.systemCommonR b r = .ok (p', []) := by
  unfold systemCommon at h
  unfold systemCommonR
  dsimp only at h ⊢
  split at h
  · next hb => rw [if_pos hb, ← h]; rfl
  · next hb =>
    rw [if_neg hb]
    split at h
    · next hb => rw [if_pos hb, ← h]; rfl
    · next hb =>
      rw [if_neg hb]
      split at h
      · next hb =>
        simp only [Prod.mk.injEq] at h
        rw [if_pos hb, call_off (post_nil h.2), ← h.1]; rfl
      · next hb => rw [if_neg hb, ← h]; rfl

theorem channelVoiceR_silent {p p' : Parser} {b : Byte} (h : p.channelVoice b = (p', [])) (r : Reaction) :
    p.channelVoiceR b r = .ok (p', []) := by
  unfold channelVoice at h
  unfold channelVoiceR
  dsimp only at h ⊢
  split at h
  · next hb => rw [if_pos hb, ← h]; rfl
  · next hb =>
    rw [if_neg hb]
    split at h
    · next hb => rw [if_pos hb, ← h]; rfl
    · next hb =>
      simp only [Prod.mk.injEq] at h
      rw [if_neg hb, call_off (post_nil h.2), ← h.1]

theorem sysexEndCallbackR_silent {p p' : Parser} (h : p.sysexEndCallback = (p', [])) (r : Reaction) :
    p.sysexEndCallbackR r = .ok (p', []) := by
  unfold sysexEndCallback at h
  unfold sysexEndCallbackR
  dsimp only at h ⊢
  split at h
  · next hb => rw [if_pos hb, ← h]; rfl
  · next hb =>
    simp only [Prod.mk.injEq, ite_eq_right_iff, List.cons_ne_nil, imp_false, Bool.not_eq_true] at h
    rw [if_neg hb, call_off (s := { p with packet := {} }) h.2, ← h.1]; rfl

theorem dataByteR_silent {p p' : Parser} {b : Byte} (h : p.dataByte b = .ok (p', [])) (r : Reaction) :
    p.dataByteR b r = .ok (p', []) := by
  unfold dataByte at h
  unfold dataByteR
  split at h
  · next hb =>
    rw [if_pos hb]
    cases hs : p.packet.setByte p.packetByte.toNat b with
    | error f => rw [hs] at h; simp at h
    | ok q =>
      rw [hs, ok_bind] at h
      rw [ok_bind]
      dsimp only at h ⊢
      split at h
      · next hm =>
        rw [if_pos hm]
        simp only [pure_eq_ok, Except.ok.injEq, Prod.mk.injEq] at h
        rw [call_off (post_nil h.2), ← h.1]; rfl
      · next hm => rw [if_neg hm, ← h]
  · next hb => rw [if_neg hb, ← h]

theorem sysexContinuePacketR_silent {p p' : Parser} {b : Byte} (h : p.sysexContinuePacket b = .ok (p', [])) (r : Reaction) :
    p.sysexContinuePacketR b r = .ok (p', []) := by
  unfold sysexContinuePacket at h
  unfold sysexContinuePacketR
  cases hs : p.packet.setByte p.packetByte.toNat b with
  | error f => rw [hs] at h; simp at h
  | ok q =>
    rw [hs, ok_bind] at h
    rw [ok_bind]
    dsimp only at h ⊢
    split at h
    · next hm =>
      rw [if_pos hm]
      by_cases hi : p.invokeCallbacks = true
      · rw [if_pos hi] at h
        exfalso
        cases h1 : q.setByte 1 ((q.status &&& 0xF0) + 6) with
        | error f => rw [h1] at h; simp at h
        | ok q' =>
          rw [h1] at h
          simp only [ok_bind, pure_eq_ok] at h
          cases h2 : makeSysex7 Format.cont p.group with
          | error f => rw [h2] at h; simp at h
          | ok q'' => rw [h2] at h; simp at h
      · rw [if_neg hi] at h
        rw [if_neg hi]
        exact h
    · next hm => rw [if_neg hm, ← h]

theorem sysexEndPacketR_silent {p p' : Parser} (h : p.sysexEndPacket = .ok (p', [])) (r : Reaction) :
    p.sysexEndPacketR r = .ok (p', []) := by
  unfold sysexEndPacket at h
  unfold sysexEndPacketR
  dsimp only at h ⊢
  split at h
  · next hb => rw [if_pos hb, ← h]
  · next hb =>
    rw [if_neg hb]
    cases hs : p.packet.setByte 1 ((if p.packet.status &&& 0xF0 = Format.start.status then Format.complete.status
        else Format.fin.status) + ((p.packetByte - 2) &&& 0x0F)) with
    | error f => rw [hs] at h; simp at h
    | ok q =>
      rw [hs, ok_bind] at h
      rw [ok_bind]
      simp only [pure_eq_ok, Except.ok.injEq, Prod.mk.injEq] at h
      rw [call_off (s := { p with packet := q }) (post_nil h.2 : p.invokeCallbacks = false), ← h.1]; rfl

theorem ok_inj {α : Type} {a b : α} (h : (Except.ok a : Except Fault α) = .ok b) : a = b := by simpa using h

theorem feedStatusR_silent {p p' : Parser} {b : Byte} (h : p.feedStatus b = .ok (p', [])) (r : Reaction) :
    p.feedStatusR b r = .ok (p', []) := by
  unfold feedStatus at h
  unfold feedStatusR
  split at h
  · next hb => rw [if_pos hb, h]
  · next hb =>
    rw [if_neg hb]
    split at h
    · next hb => rw [if_pos hb]; exact systemCommonR_silent (ok_inj h) r
    · next hb =>
      rw [if_neg hb]
      split at h
      · next hb => rw [if_pos hb]; exact channelVoiceR_silent (ok_inj h) r
      · next hb => rw [if_neg hb]; exact dataByteR_silent h r

/-- If a byte causes no event, the callback does not matter. -/
theorem feedR_silent {p p' : Parser} {b : Byte} (h : p.feed b = .ok (p', [])) (r : Reaction) : p.feedR b r = .ok (p', []) := by
  unfold feed at h
  unfold feedR
  split at h
  · next hb => rw [if_pos hb]; exact systemRealtimeR_silent (ok_inj h) r
  · next hb =>
    rw [if_neg hb]
    split at h
    · next hb =>
      rw [if_pos hb]
      split at h
      · next hb =>
        rw [if_pos hb]
        split at h
        · next hb => rw [if_pos hb, h]
        · next hb => rw [if_neg hb]; exact sysexContinuePacketR_silent h r
      · next hb =>
        rw [if_neg hb]
        split at h
        · next hb => rw [if_pos hb]; exact feedStatusR_silent h r
        · next hb =>
          rw [if_neg hb]
          split at h
          · next hb => rw [if_pos hb]; exact sysexEndCallbackR_silent (ok_inj h) r
          · next hb => rw [if_neg hb]; exact sysexEndPacketR_silent h r
    · next hb => rw [if_neg hb]; exact feedStatusR_silent h r

/-! ## The parser does what the reference machine says -/

/-- A sysex packet with a given number in the place of the payload size. -/
def sentPk (g : Byte) (f n : Nat) (d : List Byte) : Packet := packetOf ((0x30 + g) :: BitVec.ofNat 8 (16 * f + n) :: d)

theorem sysexPacket_sentPk (g : Byte) (f : Nat) (d : List Byte) : sysexPacket g f d = sentPk g f d.length d := rfl

theorem byteAt_sentPk (g : Byte) (f n : Nat) (d : List Byte) {i : Nat} (hi : i < 16) :
    (sentPk g f n d).byteAt i = if i = 0 then 0x30 + g else if i = 1 then BitVec.ofNat 8 (16 * f + n) else d.getD (i - 2) 0 := by
  rw [sentPk, byteAt_packetOf _ hi]
  match i with
  | 0 => rfl
  | 1 => rfl
  | i + 2 => simp

theorem type_sentPk {g : Byte} (hg : g < 16) (f n : Nat) (d : List Byte) : (sentPk g f n d).type = PacketType.data := by
  rw [Packet.type_eq, byteAt_sentPk _ _ _ _ (by omega), if_pos rfl]
  revert hg; revert g; decide +kernel

theorem status_sentPk (g : Byte) {f n : Nat} (hf : f < 4) (hn : n < 16) (d : List Byte) :
    (sentPk g f n d).status &&& 0xF0 = BitVec.ofNat 8 (16 * f) := by
  rw [Packet.status_eq, byteAt_sentPk _ _ _ _ (by omega), if_neg (by omega), if_pos rfl]
  interval_cases f <;> interval_cases n <;> rfl

theorem putByte_sentPk (g : Byte) (f n : Nat) {d : List Byte} (hd : d.length < 14) (b : Byte) :
    (sentPk g f n d).putByte (2 + d.length) b = sentPk g f n (d ++ [b]) := by
  apply Packet.ext_bytes
  intro i hi
  rw [Packet.byteAt_putByte _ (by omega) hi, byteAt_sentPk _ _ _ _ hi, byteAt_sentPk _ _ _ _ hi]
  by_cases h0 : i = 0
  · subst h0; rw [if_neg (by omega)]; simp
  by_cases h1 : i = 1
  · subst h1; rw [if_neg (by omega)]; simp
  rw [if_neg h0, if_neg h1, if_neg h0, if_neg h1]
  by_cases h2 : i = 2 + d.length
  · subst h2; simp
  · rw [if_neg h2]
    by_cases h3 : i - 2 < d.length
    · simp [List.getElem?_append_left h3]
    · simp only [List.getD_eq_getElem?_getD]
      rw [List.getElem?_eq_none (by omega), List.getElem?_eq_none (by simp; omega)]

theorem putByte1_sentPk (g : Byte) (f n : Nat) (d : List Byte) (f' n' : Nat) :
    (sentPk g f n d).putByte 1 (BitVec.ofNat 8 (16 * f' + n')) = sentPk g f' n' d := by
  apply Packet.ext_bytes
  intro i hi
  rw [Packet.byteAt_putByte _ (by omega) hi, byteAt_sentPk _ _ _ _ hi, byteAt_sentPk _ _ _ _ hi]
  by_cases h1 : i = 1
  · subst h1; simp
  · rw [if_neg h1, if_neg h1]
    by_cases h0 : i = 0
    · rw [if_pos h0, if_pos h0]
    · rw [if_neg h0, if_neg h0, if_neg h1]

/-- The packet that was sent, and the bytes added to it. -/
structure SentRel (c : Settings) (g : Byte) (f : Nat) (d : List Byte) (p : Parser) : Prop where
  gt : g < 16
  ft : f < 4
  len : d.length ≤ 14
  start : f = 1 → d ≠ []
  byte : p.packetByte = BitVec.ofNat 8 (2 + d.length)
  packet : ∃ n, n < 16 ∧ p.packet = sentPk g f n d
  cb : c.sysexCallback = false
  rest : ParserRel c .idle { p with packet := {} }

theorem SentRel.type {c : Settings} {g : Byte} {f : Nat} {d : List Byte} {p : Parser} (h : SentRel c g f d p) :
    p.packet.type = PacketType.data := by
  obtain ⟨n, -, e⟩ := h.packet
  rw [e, type_sentPk h.gt]

/-- The relation between a parser and the state of the reference machine. -/
def InnerRel (c : Settings) : InnerState → Parser → Prop
  | .plain st, p => ParserRel c st p ∨
      (st = .idle ∧ p.packet.type ≠ PacketType.data ∧ p.packet.status ≥ 0xF0 ∧ p.missing = 0 ∧
        ParserRel c .idle { p with packet := {} })
  | .sent g f d, p => SentRel c g f d p

/-- The settings are the same in any state. -/
theorem InnerRel.forget {c : Settings} {st : InnerState} {p : Parser} (h : InnerRel c st p) :
    ParserRel c .idle { p with packet := {} } := by
  match st with
  | .plain st =>
    rcases h with h | h
    · exact h.idle
    · exact h.2.2.2.2
  | .sent .. => exact h.rest

theorem dataByte_event {c : Settings} {g s : Byte} {d : List Byte} {p : Parser} (h : ParserRel c (.message g s d) p) {b : Byte}
    (hl : d.length + 1 = dataBytes s) (hon : c.enabled = true) :
    ∃ m : Parser, InnerRel c (.plain (if s < 0xF0 then .message g s [] else .idle)) m ∧
      ∀ r, p.dataByteR b r = (r m).map fun x =>
        ((if x.1.packet.status ≥ 0xF0 then { x.1 with packet := {} } else x.1), .packet (shortMessage g s (d ++ [b])) :: x.2) := by
  have hs := h.state
  dsimp only at hs
  obtain ⟨hg, hs80, hlen, hpb, hmiss, x, y, hp, hy, hx⟩ := hs
  have hle := dataBytes_le s
  have hs0 : s ≠ 0 := by rintro rfl; exact absurd hs80 (by decide)
  have hi : p.invokeCallbacks = true := by rw [h.on]; exact hon
  -- the byte is written
  obtain ⟨x', y', hput, hmsg, hy'⟩ : ∃ x' y', (shortPk g s x y).putByte (2 + d.length) b = shortPk g s x' y' ∧
      shortMessage g s (d ++ [b]) = shortPk g s x' y' ∧ (dataBytes s = 1 → y' = 0) := by
    match d with
    | [] =>
      have h1 : dataBytes s = 1 := by simpa using hl.symm
      exact ⟨b, 0, by rw [hy h1]; exact putByte2_shortPk .., shortMessage_one .., fun _ => rfl⟩
    | [a] =>
      have hxa := hx a rfl
      subst hxa
      exact ⟨x, b, putByte3_shortPk .., shortMessage_two .., fun h1 => by simp at hl; omega⟩
    | _ :: _ :: _ => simp at hl; omega
  have hb2 : (BitVec.ofNat 8 (2 + d.length)).toNat = 2 + d.length := by
    rw [BitVec.toNat_ofNat, Nat.mod_eq_of_lt (by omega)]
  have hm1 : dataBytes s - d.length = 1 := by omega
  have key : ∀ r, p.dataByteR b r = (do
      let s' : Parser := { p with packet := shortPk g s x' y', missing := 0 }
      let s' := if s < 0xF0 then { s' with missing := BitVec.ofNat 8 (2 + d.length) - 1, packetByte := 2 } else s'
      let (s', es) ← s'.call (.packet (shortPk g s x' y')) r
      return (if s'.packet.status ≥ 0xF0 then { s' with packet := {} } else s', es)) := by
    intro r
    unfold dataByteR
    rw [if_pos]
    · rw [hp, hpb, hmiss, hb2, Packet.setByte_lt _ (by omega), ok_bind, hput, hm1]
      dsimp only
      rw [if_pos (by decide)]
      simp only [status_shortPk]
      by_cases hF : s < 0xF0
      · simp only [hF, if_true]
      · simp only [hF, if_false]; rfl
    · rw [hp, status_shortPk, hpb, hmiss, hm1]
      refine ⟨hs0, by decide, ?_⟩
      have : d.length ≤ 1 := by omega
      generalize d.length = k at this
      interval_cases k <;> decide
  by_cases hF : s < 0xF0
  · refine ⟨{ p with packet := shortPk g s x' y', missing := BitVec.ofNat 8 (2 + d.length) - 1, packetByte := 2 }, ?_, ?_⟩
    · left
      rw [if_pos hF]
      refine ⟨h.group, h.cb, h.on, h.lt, hg, hs80, by simp; omega, rfl, ?_, x', y', rfl, hy', by simp⟩
      dsimp only
      have : d.length ≤ 1 := by omega
      rw [← hl]
      generalize d.length = k at this
      interval_cases k <;> decide
    · intro r
      rw [key]
      simp only [hF, if_true]
      rw [call_on (s := { p with packet := shortPk g s x' y', missing := BitVec.ofNat 8 (2 + d.length) - 1, packetByte := 2 }) hi,
        hmsg]
      cases r { p with packet := shortPk g s x' y', missing := BitVec.ofNat 8 (2 + d.length) - 1, packetByte := 2 } <;> rfl
  · refine ⟨{ p with packet := shortPk g s x' y', missing := 0 }, ?_, ?_⟩
    · right
      rw [if_neg hF]
      refine ⟨rfl, type_shortPk hg _ _, ?_, rfl, h.group, h.cb, h.on, h.lt, rfl⟩
      show (shortPk g s x' y').status ≥ 0xF0
      rw [status_shortPk]; simpa using hF
    · intro r
      rw [key]
      simp only [hF, if_false]
      rw [call_on (s := { p with packet := shortPk g s x' y', missing := 0 }) hi, hmsg]
      cases r { p with packet := shortPk g s x' y', missing := 0 } <;> rfl

theorem setByte_type {p q : Packet} {i : Nat} {b : Byte} (hi : 1 ≤ i) (hi' : i < 16) (h : p.setByte i b = .ok q) :
    q.type = p.type := by
  rw [Packet.setByte_lt _ hi'] at h
  have := ok_inj h
  subst this
  rw [Packet.type_eq, Packet.type_eq, Packet.byteAt_putByte _ hi' (by omega), if_neg (by omega)]

theorem continuePacket_event {c : Settings} {g : Byte} {w : Bool} {d : List Byte} {p : Parser}
    (h : ParserRel c (.sysex g w d) p) {b : Byte} (hcb : c.sysexCallback = false) (h6 : (d.length + 1) % 6 = 0)
    (hon : c.enabled = true) : ∃ m : Parser,
      InnerRel c (.sent g (if d.length < 6 then 1 else 2) ((d ++ [b]).drop (d.length + 1 - 6))) m ∧ m.packetByte = 8 ∧
      ∀ r, p.sysexContinuePacketR b r = (r m >>= fun x => (makeSysex7 .cont x.1.group).map fun q =>
        ({ x.1 with packet := q, packetByte := 2 },
          .packet (sysexPacket g (if d.length < 6 then 1 else 2) ((d ++ [b]).drop (d.length + 1 - 6))) :: x.2)) := by
  have hs := h.state
  dsimp only at hs
  rw [if_neg (by simp [hcb])] at hs
  obtain ⟨hg, hpb, hp⟩ := hs
  have hi : p.invokeCallbacks = true := by rw [h.on]; exact hon
  have hlt : d.length % 6 < 6 := Nat.mod_lt _ (by omega)
  have hdl : (d.drop (d.length / 6 * 6)).length = d.length % 6 := by
    rw [List.length_drop]; omega
  have h5 : d.length % 6 = 5 := by omega
  have h8 : BitVec.ofNat 8 (2 + (d.drop (d.length / 6 * 6)).length) + 1 = 8 := by rw [hdl, h5]; decide
  have hdrop : (d ++ [b]).drop (d.length + 1 - 6) = d.drop (d.length / 6 * 6) ++ [b] := by
    rw [show d.length + 1 - 6 = d.length / 6 * 6 by omega, List.drop_append_of_le_length (by omega)]
  rw [hdrop]
  generalize hpl : d.drop (d.length / 6 * 6) ++ [b] = pl
  have hl : pl.length = 6 := by rw [← hpl]; simp [hdl, h5]
  have hst : (part7 (if d.length < 6 then .start else .cont) g pl).status &&& 0xF0 =
      (if d.length < 6 then Format.start else .cont).status := by
    rw [status_part7]; split <;> rfl
  have hfin : (part7 (if d.length < 6 then .start else .cont) g pl).putByte 1
      ((if d.length < 6 then Format.start else .cont).status + 6) = sysexPacket g (if d.length < 6 then 1 else 2) pl := by
    have e := part7_finish (if d.length < 6 then .start else .cont) (if d.length < 6 then .start else .cont) g pl (by omega)
    rw [hl] at e
    have e6 : (6 : Byte) = BitVec.ofNat 8 6 := rfl
    rw [e6, e, ← sysexPacket_eq _ hg (by omega)]
    congr 1
    split <;> rfl
  refine ⟨{ p with packet := sysexPacket g (if d.length < 6 then 1 else 2) pl, packetByte := 8 }, ?_, rfl, ?_⟩
  · refine ⟨hg, by split <;> omega, by omega, fun _ => ?_, by rw [hl]; rfl, ⟨pl.length, by omega, rfl⟩, hcb, h.group, h.cb, h.on,
      h.lt, rfl⟩
    intro hnil
    rw [hnil] at hl
    simp at hl
  · intro r
    unfold sysexContinuePacketR
    rw [hpb, hp, BitVec.toNat_ofNat, Nat.mod_eq_of_lt (by omega), Packet.setByte_lt _ (by omega), ok_bind, ← hdl,
      part7_put _ _ (by omega), hpl]
    dsimp only
    rw [if_pos h8, if_pos hi, Packet.setByte_lt _ (by omega), hst, hfin, h8, ok_bind]
    rw [call_on (s := { p with packet := sysexPacket g (if d.length < 6 then 1 else 2) pl, packetByte := 8 }) hi]
    cases r { p with packet := sysexPacket g (if d.length < 6 then 1 else 2) pl, packetByte := 8 } with
    | error f => rfl
    | ok x =>
      rw [ok_bind]
      show ((makeSysex7 Format.cont x.1.group).bind fun q => .ok (({ x.1 with packet := q, packetByte := 2 } : Parser),
        Event.packet (sysexPacket g (if d.length < 6 then 1 else 2) pl) :: x.2)) = _
      cases makeSysex7 Format.cont x.1.group <;> rfl

theorem continuePacket_resumed {c : Settings} {st : InnerState} {p : Parser} (h : InnerRel c st p) (hcb : c.sysexCallback = false)
    {d : List Byte} (h6 : d.length % 6 = 0) (h0 : d ≠ []) (w : Bool) :
    makeSysex7 .cont p.group = .ok (mk7 .cont c.group []) ∧
    ParserRel c (.sysex c.group w d) { p with packet := mk7 .cont c.group [], packetByte := 2 } := by
  have h := h.forget
  have hpos : 0 < d.length := List.length_pos_iff.2 h0
  refine ⟨by rw [show p.group = c.group from h.group, makeSysex7_eq _ h.lt], h.group, h.cb, h.on, h.lt, h.lt, ?_⟩
  dsimp only
  rw [if_neg (by simp [hcb]), h6]
  refine ⟨rfl, ?_⟩
  rw [if_neg (by omega), List.drop_eq_nil_of_le (by omega), part7_nil]

theorem endPacket_event {c : Settings} {g : Byte} {w : Bool} {d : List Byte} {p : Parser}
    (h : ParserRel c (.sysex g w d) p) (hcb : c.sysexCallback = false) (h0 : d ≠ []) (hon : c.enabled = true) :
    ∃ m : Parser, InnerRel c (if d.length < 6 then .sent g 0 d else .sent g 3 (d.drop (d.length / 6 * 6))) m ∧
      ∀ r, p.sysexEndPacketR r = (r m).map fun x =>
      ({ x.1 with packet := {}, packetByte := 2 },
        (if d.length < 6 then .packet (sysexPacket g 0 d) else .packet (sysexPacket g 3 (d.drop (d.length / 6 * 6)))) :: x.2) := by
  have hs := h.state
  dsimp only at hs
  rw [if_neg (by simp [hcb])] at hs
  obtain ⟨hg, hpb, hp⟩ := hs
  have hi : p.invokeCallbacks = true := by rw [h.on]; exact hon
  have hlt : d.length % 6 < 6 := Nat.mod_lt _ (by omega)
  have hdl : (d.drop (d.length / 6 * 6)).length = d.length % 6 := by
    rw [List.length_drop]; omega
  have hsize : (BitVec.ofNat 8 (2 + d.length % 6) - 2) &&& 0x0F = BitVec.ofNat 8 (d.length % 6) := by
    generalize d.length % 6 = k at hlt; interval_cases k <;> rfl
  have hst : (part7 (if d.length < 6 then .start else .cont) g (d.drop (d.length / 6 * 6))).status &&& 0xF0 =
      (if d.length < 6 then Format.start else .cont).status := by
    rw [status_part7]; split <;> rfl
  have key : ∀ (f : Nat) (pl : List Byte), f < 4 → f ≠ 1 → pl.length ≤ 14 → p.packetByte = BitVec.ofNat 8 (2 + pl.length) →
      (∀ r, p.sysexEndPacketR r = (do
        let s : Parser := { p with packet := sysexPacket g f pl }
        let (s, es) ← s.call (.packet (sysexPacket g f pl)) r
        return ({ s with packet := {}, packetByte := 2 }, es))) →
      ∃ m : Parser, InnerRel c (.sent g f pl) m ∧ ∀ r, p.sysexEndPacketR r = (r m).map fun x =>
        ({ x.1 with packet := {}, packetByte := 2 }, .packet (sysexPacket g f pl) :: x.2) := by
    intro f pl hf hf1 hl hb hr
    refine ⟨{ p with packet := sysexPacket g f pl }, ⟨hg, hf, hl, fun e => absurd e hf1, hb, ⟨pl.length, by omega, rfl⟩, hcb, h.group,
      h.cb, h.on, h.lt, rfl⟩, fun r => ?_⟩
    rw [hr]
    dsimp only
    rw [call_on (s := { p with packet := sysexPacket g f pl }) hi]
    cases r { p with packet := sysexPacket g f pl } <;> rfl
  by_cases h6 : d.length < 6
  · simp only [h6, if_true] at hst hp ⊢
    have hdrop : d.drop (d.length / 6 * 6) = d := by rw [show d.length / 6 * 6 = 0 by omega, List.drop_zero]
    have hmod : d.length % 6 = d.length := Nat.mod_eq_of_lt h6
    rw [hdrop] at hst hp
    rw [hmod] at hsize hpb
    have hpos : 0 < d.length := List.length_pos_iff.2 h0
    have hge : ¬ BitVec.ofNat 8 (2 + d.length) < 3 := by
      generalize d.length = k at h6 hpos; interval_cases k <;> decide
    have e := part7_finish .start .complete g d (by omega)
    refine key 0 d (by omega) (by omega) (by omega) hpb fun r => ?_
    unfold sysexEndPacketR
    rw [hpb, hp, hst, hsize]
    dsimp only
    rw [if_neg (by intro e; exact hge e.2), if_pos rfl, Packet.setByte_lt _ (by omega), ok_bind, e, ← sysexPacket_eq _ hg (by omega)]
    rfl
  · simp only [h6, if_false] at hst hp ⊢
    have e := part7_finish .cont .fin g (d.drop (d.length / 6 * 6)) (by omega)
    rw [hdl] at e
    refine key 3 _ (by omega) (by omega) (by omega) (by rw [hdl]; exact hpb) fun r => ?_
    unfold sysexEndPacketR
    rw [hpb, hp, hst, hsize]
    dsimp only
    rw [if_neg (by intro e; exact absurd e.1 (by decide)), if_neg (by decide), Packet.setByte_lt _ (by omega), ok_bind, e,
      ← sysexPacket_eq _ hg (by omega)]
    rfl

theorem endCallback_event {c : Settings} {g : Byte} {d : List Byte} {p : Parser}
    (h : ParserRel c (.sysex g true d) p) (hcb : c.sysexCallback = true) (hid : HasId d) (hon : c.enabled = true) :
    ∀ r, p.sysexEndCallbackR r = (r { p with packet := {} }).map fun x =>
      ({ x.1 with sysex := x.1.sysex.clear }, .sysex (message7 d) :: x.2) := by
  intro r
  have hs := h.state
  dsimp only at hs
  rw [if_pos hcb] at hs
  obtain ⟨hg, ht, hs⟩ := hs
  simp only [if_true] at hs
  have hi : p.invokeCallbacks = true := by rw [h.on]; exact hon
  rw [← hs.2]
  unfold sysexEndCallbackR
  dsimp only
  rw [if_neg (by rw [hs.1, hs.2, endCallback_cond]; simpa using hid), call_on (s := { p with packet := {} }) hi]
  cases r { p with packet := {} } <;> rfl

theorem forgotten_pos (d : List Byte) : idPos (forgotten d) = idPos d ∧ message7 (forgotten d) = ⟨0, []⟩ := by
  match d with
  | [] => exact ⟨rfl, rfl⟩
  | a :: t =>
    by_cases ha : a = 0
    · subst ha
      match t with
      | [] => exact ⟨by decide, by decide⟩
      | [x] => exact ⟨by simp [forgotten, idPos, List.replicate], by simp [forgotten]; decide⟩
      | x :: y :: t =>
        have : forgotten (0 :: x :: y :: t) = [0, 0, 0] := by
          unfold forgotten
          rw [if_neg (by simp), if_pos (by simp), Nat.min_eq_left (by simp)]; rfl
        rw [this]
        exact ⟨by simp [idPos], by decide⟩
    · have ha' : ¬ a = 0#8 := ha
      have : forgotten (a :: t) = [0] := by
        unfold forgotten
        rw [if_neg (by simp), if_neg (by simpa using ha')]; rfl
      rw [this]
      exact ⟨by simp [idPos, ha'], by decide⟩

theorem endCallback_resumed {c : Settings} {st : InnerState} {p : Parser} (h : InnerRel c st p) (hcb : c.sysexCallback = true) :
    InnerRel c (forgetSysex st) { p with sysex := p.sysex.clear } := by
  match st with
  | .sent .. => exact absurd (h.cb : _ = false) (by simp [hcb])
  | .plain .idle =>
    rcases h with h | h
    · exact Or.inl ⟨h.group, h.cb, h.on, h.lt, h.state⟩
    · exact Or.inr ⟨rfl, h.2.1, h.2.2.1, h.2.2.2.1, h.2.2.2.2.group, h.2.2.2.2.cb, h.2.2.2.2.on, h.2.2.2.2.lt, rfl⟩
  | .plain (.message g s d) =>
    rcases h with h | h
    · exact Or.inl ⟨h.group, h.cb, h.on, h.lt, h.state⟩
    · exact absurd h.1 (by simp)
  | .plain (.sysex g w d) =>
    rcases h with h | h
    · left
      have hs := h.state
      dsimp only at hs
      rw [if_pos hcb] at hs
      refine ⟨h.group, h.cb, h.on, h.lt, hs.1, ?_⟩
      rw [if_pos hcb]
      refine ⟨hs.2.1, ?_⟩
      cases w with
      | true =>
        simp only [if_true] at hs ⊢
        exact ⟨by rw [(forgotten_pos d).1]; exact hs.2.2.1, by rw [(forgotten_pos d).2]; rfl⟩
      | false => exact ⟨hs.2.2.1, rfl⟩
    · exact absurd h.1 (by simp)

theorem common_resumed {c : Settings} {st : StreamState} {p : Parser} (h : InnerRel c (.plain st) p) :
    InnerRel c (dropCommon (.plain st)) (if p.packet.status ≥ 0xF0 then { p with packet := {} } else p) := by
  match st with
  | .idle =>
    rcases h with h | h
    · have hs := h.state
      dsimp only at hs
      rw [if_neg (by rw [hs]; decide)]; exact Or.inl h
    · rw [if_pos h.2.2.1]; exact Or.inl h.2.2.2.2
  | .message g s d =>
    rcases h with h | h
    · have hs := h.state
      dsimp only at hs
      obtain ⟨_, _, _, _, _, x, y, e, _⟩ := hs
      rw [e, status_shortPk]
      show InnerRel c (if s < 0xF0 then _ else _) _
      by_cases hF : s < 0xF0
      · rw [if_pos hF, if_neg (by simpa using hF)]; exact Or.inl h
      · rw [if_neg hF, if_pos (by simpa using hF)]; exact Or.inl h.idle
    · exact absurd h.1 (by simp)
  | .sysex g w d =>
    rcases h with h | h
    · have hs := h.state
      dsimp only at hs
      have hlow : ¬ p.packet.status ≥ 0xF0 := by
        split at hs
        · rw [hs.2.1, ← part7_nil, status_part7]; decide
        · rw [hs.2.2, status_part7]; split <;> decide
      rw [if_neg hlow]; exact Or.inl h
    · exact absurd h.1 (by simp)

/-- The state after a byte that is fed outside of the callback for a sysex packet is never within such a callback. -/
def IsPlain (st : InnerState) : Prop := ∃ s, st = .plain s

/-- What a callback does, and its counterpart. -/
def Sim (rs : Settings → InnerState → Option (Settings × InnerState × List Event)) (rp : Reaction) : Prop :=
  ∀ c st p, InnerRel c st p →
    (∀ c' st' es, rs c st = some (c', st', es) →
      (c'.sysexCallback = c.sysexCallback ∧ (IsPlain st → IsPlain st')) ∧ ∃ p', rp p = .ok (p', es) ∧ InnerRel c' st' p') ∧
    (rs c st = none → rp p = .error .assertFailed)

/-- A call of the callback in some state, and what is done when it has returned. -/
structure CallsBack (c : Settings) (p : Parser) (b : Byte) (e : Event) (st : InnerState) (m : Parser)
    (post : Parser → Except Fault Parser) (next : Settings → InnerState → InnerState) : Prop where
  inside : InnerRel c st m
  run : ∀ rp : Reaction, p.feedR b rp = (rp m >>= fun x => (post x.1).map fun q => (q, e :: x.2))
  back : ∀ c2 st2 p2, InnerRel c2 st2 p2 → c2.sysexCallback = c.sysexCallback → (IsPlain st → IsPlain st2) →
    ∃ p3, post p2 = .ok p3 ∧ InnerRel c2 (next c2 st2) p3 ∧ IsPlain (next c2 st2)

/-- A byte below F8 in a state of the grammar. -/
theorem innerStep_shape {c : Settings} {st : StreamState} {p : Parser} (h : ParserRel c st p) {b : Byte} (h1 : ¬ b ≥ 0xF8) :
    ((stepByte c st b).2 = [] ∧ ∃ p1, ParserRel c (byteEvents c st b).1 p1 ∧ ∀ rp, p.feedR b rp = .ok (p1, [])) ∨
    ∃ e rest m post, (stepByte c st b).2 = e :: rest ∧
      CallsBack c p b e (during c st b (byteEvents c st b).1) m post (fun c2 st2 => resumed c st b (byteEvents c st b).1 c2 st2) := by
  obtain ⟨p1, e1, r1⟩ := feed_rel h b
  have hbyte : (stepByte c st b).2 = if c.enabled then (byteEvents c st b).2 else [] := rfl
  cases hev : (stepByte c st b).2 with
  | nil =>
    rw [hev] at e1
    exact Or.inl ⟨rfl, p1, r1, fun rp => feedR_silent e1 rp⟩
  | cons e rest =>
    right
    refine ⟨e, rest, ?_⟩
    suffices H : ∃ m post, CallsBack c p b e (during c st b (byteEvents c st b).1) m post
        (fun c2 st2 => resumed c st b (byteEvents c st b).1 c2 st2) by
      obtain ⟨m, post, H⟩ := H; exact ⟨m, post, rfl, H⟩
    have hon : c.enabled = true := by
      by_contra hc
      rw [hbyte, if_neg hc] at hev; simp at hev
    have h1s : ¬ b ≥ SystemStatus.clock := h1
    by_cases h2 : b < 0x80
    · have hb6 : b ≠ 0xF6 := by rintro rfl; exact absurd h2 (by decide)
      match st with
      | .idle => rw [step_idle c h2] at hev; simp at hev
      | .message g s d =>
        rw [step_message c g s d h2] at hev
        by_cases hl : d.length + 1 = dataBytes s
        · rw [if_pos hl] at hev
          simp only [hon, if_true, List.cons.injEq] at hev
          obtain ⟨m, hm, hmr⟩ := dataByte_event h (b := b) hl hon
          have hnext : (byteEvents c (.message g s d) b).1 = if s < 0xF0 then .message g s [] else .idle := by
            have := congrArg Prod.fst (step_message c g s d h2)
            rw [if_pos hl] at this; exact this
          refine ⟨m, fun q => .ok (if q.packet.status ≥ 0xF0 then { q with packet := {} } else q), ?_, ?_, ?_⟩
          · rw [hnext]; exact hm
          · intro rp
            unfold feedR
            rw [if_neg h1s, if_neg (h.type_ne (by simp))]
            unfold feedStatusR
            have hn : b ≠ 0xF0 ∧ ¬ b > 0xF0 ∧ ¬ b ≥ 0x80 := by
              clear * - h2; revert h2; revert b; decide +kernel
            rw [if_neg hn.1, if_neg hn.2.1, if_neg hn.2.2, hmr, ← hev.1]
            cases rp m <;> rfl
          · intro c2 st2 p2 hp2 hcb hpl
            obtain ⟨s2, rfl⟩ := hpl ⟨_, rfl⟩
            unfold resumed
            rw [if_neg hb6]
            refine ⟨_, rfl, common_resumed hp2, ?_⟩
            cases s2 with
            | idle => exact ⟨_, rfl⟩
            | sysex => exact ⟨_, rfl⟩
            | message g s d =>
              show IsPlain (if s < 0xF0 then _ else _)
              split <;> exact ⟨_, rfl⟩
        · rw [if_neg hl] at hev; simp at hev
      | .sysex g w d =>
        by_cases hcbt : c.sysexCallback = true
        · rw [step_sysex_cb c g w d h2 hcbt] at hev; simp at hev
        · have hcbf : c.sysexCallback = false := by simpa using hcbt
          rw [step_sysex_packet c g w d h2 hcbf] at hev
          by_cases h6 : (d.length + 1) % 6 = 0
          · rw [if_pos h6] at hev
            simp only [hon, if_true, List.cons.injEq] at hev
            obtain ⟨m, hm, -, hmr⟩ := continuePacket_event h (b := b) hcbf h6 hon
            have hnext : (byteEvents c (.sysex g w d) b).1 = .sysex c.group w (d ++ [b]) := by
              have := congrArg Prod.fst (step_sysex_packet c g w d h2 hcbf)
              rw [if_pos h6] at this; exact this
            refine ⟨m, fun q => (makeSysex7 .cont q.group).map fun k => { q with packet := k, packetByte := 2 }, ?_, ?_, ?_⟩
            · unfold during sending; dsimp only; rw [if_pos ⟨hcbf, Or.inl h2⟩, if_pos h2]; exact hm
            · intro rp
              unfold feedR
              rw [if_neg h1s, if_pos h.type_sysex, if_pos h2, if_neg (by rw [h.cb]; exact hcbt), hmr, ← hev.1]
              cases rp m with
              | error f => rfl
              | ok x => rw [ok_bind, ok_bind]; cases makeSysex7 Format.cont x.1.group <;> rfl
            · intro c2 st2 p2 hp2 hcb _
              unfold resumed
              rw [if_neg hb6, hnext]
              dsimp only
              rw [if_neg hcbt]
              obtain ⟨hmk, hrel⟩ := continuePacket_resumed hp2 (by rw [hcb]; exact hcbf) (d := d ++ [b]) (by simpa using h6) (by simp) w
              exact ⟨_, by rw [hmk]; rfl, Or.inl hrel, _, rfl⟩
          · rw [if_neg h6] at hev; simp at hev
    · by_cases h3 : b = 0xF7
      · subst h3
        match st with
        | .idle | .message .. => rw [step_end_other _ _ (by simp)] at hev; simp at hev
        | .sysex g w d =>
          by_cases hcbt : c.sysexCallback = true
          · rw [step_end_cb c g w d hcbt] at hev
            simp only [hon, if_true] at hev
            by_cases hid : w = true ∧ HasId d
            · rw [if_pos hid] at hev
              obtain ⟨rfl, hid⟩ := hid
              simp only [List.cons.injEq] at hev
              have hnext : (byteEvents c (.sysex g true d) 0xF7).1 = .idle :=
                congrArg Prod.fst (step_end_cb c g true d hcbt)
              have hdur : during c (.sysex g true d) 0xF7 .idle = .plain .idle := by
                unfold during; dsimp only; rw [if_neg (by simp [hcbt])]
              rw [hnext, hdur]
              refine ⟨{ p with packet := {} }, fun q => .ok { q with sysex := q.sysex.clear }, Or.inl h.idle, ?_, ?_⟩
              · intro rp
                unfold feedR
                rw [if_neg h1s, if_pos h.type_sysex, if_neg h2, if_neg (by simp), if_pos (by rw [h.cb]; exact hcbt),
                  endCallback_event h hcbt hid hon, ← hev.1]
                cases rp { p with packet := {} } <;> rfl
              · intro c2 st2 p2 hp2 hcb hpl
                obtain ⟨s2, rfl⟩ := hpl ⟨_, rfl⟩
                unfold resumed
                rw [if_neg (by decide)]
                dsimp only
                rw [if_pos hcbt]
                exact ⟨_, rfl, endCallback_resumed hp2 (by rw [hcb]; exact hcbt), by cases s2 <;> exact ⟨_, rfl⟩⟩
            · rw [if_neg hid] at hev; simp at hev
          · have hcbf : c.sysexCallback = false := by simpa using hcbt
            rw [step_end_packet c g w d hcbf] at hev
            simp only [hon, if_true] at hev
            by_cases h0 : d = []
            · rw [if_pos h0] at hev; simp at hev
            · rw [if_neg h0] at hev
              obtain ⟨m, hm, hmr⟩ := endPacket_event h hcbf h0 hon
              have hnext : (byteEvents c (.sysex g w d) 0xF7).1 = .idle :=
                congrArg Prod.fst (step_end_packet c g w d hcbf)
              refine ⟨m, fun q => .ok { q with packet := {}, packetByte := 2 }, ?_, ?_, ?_⟩
              · unfold during sending; dsimp only; rw [if_pos ⟨hcbf, Or.inr rfl⟩, if_neg (by decide)]; exact hm
              · intro rp
                unfold feedR
                rw [if_neg h1s, if_pos h.type_sysex, if_neg h2, if_neg (by simp), if_neg (by rw [h.cb]; exact hcbt), hmr]
                have : e = (if d.length < 6 then .packet (sysexPacket g 0 d) else
                    .packet (sysexPacket g 3 (d.drop (d.length / 6 * 6)))) := by
                  split at hev
                  · next h6 => rw [if_pos h6]; simp at hev; exact hev.1.symm
                  · next h6 => rw [if_neg h6]; simp at hev; exact hev.1.symm
                rw [this]
                cases rp m <;> rfl
              · intro c2 st2 p2 hp2 hcb _
                have hf := hp2.forget
                unfold resumed
                rw [if_neg (by decide), hnext]
                dsimp only
                rw [if_neg hcbt]
                exact ⟨_, rfl, Or.inl ⟨hf.group, hf.cb, hf.on, hf.lt, rfl⟩, _, rfl⟩
      · rw [step_status c st h1 h2 h3] at hev
        by_cases h6 : b = 0xF6
        · subst h6
          rw [step_tune] at hev
          simp only [hon, if_true, List.cons.injEq] at hev
          have hnext : (byteEvents c st 0xF6).1 = .idle := congrArg Prod.fst (step_tune c st)
          have hdur : during c st 0xF6 .idle = .plain .idle := by
            unfold during; split
            · rw [if_neg (by simp)]
            · rfl
          rw [hnext, hdur]
          have hi : p.invokeCallbacks = true := by rw [h.on]; exact hon
          have hstat : ((shortPk c.group 0xF6 0 0).status : Byte) = 0xF6 := status_shortPk ..
          have hm : InnerRel c (.plain .idle) { p with packet := shortPk c.group 0xF6 0 0, packetByte := 2, missing := 0 } :=
            Or.inr ⟨rfl, type_shortPk h.lt _ _, by rw [hstat]; decide, rfl, h.group, h.cb, h.on, h.lt, rfl⟩
          refine ⟨{ p with packet := shortPk c.group 0xF6 0 0, packetByte := 2, missing := 0 }, fun q => .ok { q with packet := {} }, hm,
            ?_, ?_⟩
          · intro rp
            have hcommon : ∀ q : Parser, q.group = p.group → q.hasSysexCallback = p.hasSysexCallback →
                q.invokeCallbacks = p.invokeCallbacks → q.sysex = p.sysex → q.feedStatusR 0xF6 rp =
                (rp { p with packet := shortPk c.group 0xF6 0 0, packetByte := 2, missing := 0 } >>= fun x =>
                  (Except.ok { x.1 with packet := {} } : Except Fault Parser).map fun q =>
                    (q, .packet (shortMessage c.group 0xF6 []) :: x.2)) := by
              intro q q1 q2 q3 q4
              unfold feedStatusR
              rw [if_neg (by decide), if_pos (by decide)]
              unfold systemCommonR
              rw [q1, q2, q3, q4, h.group, makeSystem_short h.lt (by decide)]
              simp only [hstat]
              rw [if_neg (by decide), if_neg (by decide), if_pos (by decide)]
              rw [shortMessage_nil]
              have hm' : Parser.mk c.group p.hasSysexCallback p.invokeCallbacks (shortPk c.group 0xF6 0 0) p.sysex 2 0 =
                  { p with packet := shortPk c.group 0xF6 0 0, packetByte := 2, missing := 0 } := by rw [← h.group]
              rw [hm', call_on (s := { p with packet := shortPk c.group 0xF6 0 0, packetByte := 2, missing := 0 }) hi]
              cases rp { p with packet := shortPk c.group 0xF6 0 0, packetByte := 2, missing := 0 } <;> rfl
            unfold feedR
            rw [if_neg h1s, ← hev.1]
            by_cases ht : p.packet.type = PacketType.data
            · rw [if_pos ht, if_neg h2, if_pos h3]
              exact hcommon _ rfl rfl rfl rfl
            · rw [if_neg ht]
              exact hcommon _ rfl rfl rfl rfl
          · intro c2 st2 p2 hp2 hcb _
            unfold resumed
            rw [if_pos rfl]
            exact ⟨_, rfl, Or.inl hp2.forget, _, rfl⟩
        · exfalso
          by_cases h0 : b = 0xF0
          · subst h0; rw [step_start] at hev; simp at hev
          by_cases h45 : b = 0xF4 ∨ b = 0xF5
          · rw [step_undefined _ _ h45] at hev; simp at hev
          · have : dataBytes b ≠ 0 := by
              clear * - h1 h2 h3 h6 h0 h45; revert h1 h2 h3 h6 h0 h45; revert b; decide +kernel
            rw [step_new c .idle h1 this] at hev; simp at hev

/-- A call of the callback, with a given reaction. -/
theorem CallsBack.sim {c : Settings} {p : Parser} {b : Byte} {e : Event} {st : InnerState} {m : Parser}
    {post : Parser → Except Fault Parser} {next : Settings → InnerState → InnerState} (h : CallsBack c p b e st m post next)
    {rs : Settings → InnerState → Option (Settings × InnerState × List Event)} {rp : Reaction} (hr : Sim rs rp) :
    (∀ c2 st2 es2, rs c st = some (c2, st2, es2) → (c2.sysexCallback = c.sysexCallback ∧ IsPlain (next c2 st2)) ∧
      ∃ p', p.feedR b rp = .ok (p', e :: es2) ∧ InnerRel c2 (next c2 st2) p') ∧
    (rs c st = none → p.feedR b rp = .error .assertFailed) := by
  have hm := hr c st m h.inside
  constructor
  · intro c2 st2 es2 hrs
    obtain ⟨⟨hcb, hpl⟩, p2, ep, hp2⟩ := hm.1 c2 st2 es2 hrs
    obtain ⟨p3, e3, r3, pl3⟩ := h.back c2 st2 p2 hp2 hcb hpl
    refine ⟨⟨hcb, pl3⟩, p3, ?_, r3⟩
    rw [h.run, ep, ok_bind, e3]; rfl
  · intro hrs
    rw [h.run, hm.2 hrs]; rfl

theorem innerStep_rel {c : Settings} {st : StreamState} {p : Parser} (h : ParserRel c st p) {b : Byte} (h1 : ¬ b ≥ 0xF8)
    {rs : Settings → InnerState → Option (Settings × InnerState × List Event)} {rp : Reaction} (hr : Sim rs rp) :
    (∀ c' st' es, innerStep c st b rs = some (c', st', es) →
      (c'.sysexCallback = c.sysexCallback ∧ IsPlain st') ∧ ∃ p', p.feedR b rp = .ok (p', es) ∧ InnerRel c' st' p') ∧
    (innerStep c st b rs = none → p.feedR b rp = .error .assertFailed) := by
  unfold innerStep
  dsimp only
  rcases innerStep_shape h h1 with ⟨hev, p1, r1, hf⟩ | ⟨e, rest, m, post, hev, hcall⟩
  · rw [hev]
    constructor
    · intro c' st' es he
      simp only [Option.some.injEq, Prod.mk.injEq] at he
      obtain ⟨rfl, rfl, rfl⟩ := he
      exact ⟨⟨rfl, _, rfl⟩, p1, hf rp, Or.inl r1⟩
    · intro he; cases he
  · rw [hev]
    dsimp only
    obtain ⟨s1, s2⟩ := hcall.sim hr
    constructor
    · intro c' st' es he
      simp only [Option.bind_eq_bind, Option.bind_eq_some_iff, Option.pure_def, Option.some.injEq, Prod.mk.injEq] at he
      obtain ⟨⟨c2, st2, es2⟩, hrs, rfl, rfl, rfl⟩ := he
      exact s1 c2 st2 es2 hrs
    · intro he
      refine s2 ?_
      cases hrs : rs c (during c st b (byteEvents c st b).1) with
      | none => rfl
      | some x => rw [hrs] at he; cases he

/-- A data byte or F7 while the callback for a sysex packet is running. -/
theorem sent_shape {c : Settings} {g : Byte} {f : Nat} {d : List Byte} {p : Parser} (h : SentRel c g f d p) {b : Byte}
    (hb : b < 0x80 ∨ b = 0xF7) :
    (b = 0xF7 ∧ c.enabled = true ∧ ∃ m post, CallsBack c p b (.packet (sysexPacket g (if f = 1 then 0 else 3) d))
      (.sent g (if f = 1 then 0 else 3) d) m post (fun _ _ => .plain .idle)) ∨
    (b = 0xF7 ∧ c.enabled = false ∧ ∃ p1, ParserRel c .idle p1 ∧ ∀ rp, p.feedR b rp = .ok (p1, [])) ∨
    (b ≠ 0xF7 ∧ d.length = 14 ∧ ∀ rp, p.feedR b rp = .error .assertFailed) ∨
    (b ≠ 0xF7 ∧ d.length + 1 = 6 ∧ c.enabled = true ∧ ∃ m post, CallsBack c p b (.packet (sysexPacket g f (d ++ [b])))
      (.sent g f (d ++ [b])) m post (fun c2 _ => .plain (.sysex c2.group true (d ++ [b])))) ∨
    (b ≠ 0xF7 ∧ d.length + 1 = 6 ∧ c.enabled = false ∧ ∃ p1, ParserRel c (.sysex c.group true (d ++ [b])) p1 ∧
      ∀ rp, p.feedR b rp = .ok (p1, [])) ∨
    (b ≠ 0xF7 ∧ d.length < 14 ∧ d.length + 1 ≠ 6 ∧ ∃ p1, SentRel c g f (d ++ [b]) p1 ∧ ∀ rp, p.feedR b rp = .ok (p1, [])) := by
  have hr := h.rest
  have h1s : ¬ b ≥ SystemStatus.clock := by
    rcases hb with hb | hb
    · clear * - hb; revert hb; revert b; decide +kernel
    · subst hb; decide
  have hcb : ¬ p.hasSysexCallback = true := by rw [show p.hasSysexCallback = c.sysexCallback from hr.cb, h.cb]; simp
  have hon : p.invokeCallbacks = c.enabled := hr.on
  obtain ⟨n, hn, hpk⟩ := h.packet
  have hlen := h.len
  have hbyte : p.packetByte.toNat = 2 + d.length := by
    rw [h.byte, BitVec.toNat_ofNat, Nat.mod_eq_of_lt (by omega)]
  by_cases h7 : b = 0xF7
  · subst h7
    have hsize : (BitVec.ofNat 8 (2 + d.length) - 2) &&& 0x0F = BitVec.ofNat 8 d.length := by
      generalize d.length = k at hlen; interval_cases k <;> rfl
    obtain ⟨pk, hpk2⟩ : ∃ pk, pk = sysexPacket g (if f = 1 then 0 else 3) d := ⟨_, rfl⟩
    rw [← hpk2]
    have hfd : ∀ rp, p.feedR 0xF7 rp = (({ p with packet := pk } : Parser).call (.packet pk) rp >>= fun x =>
        .ok ({ x.1 with packet := {}, packetByte := 2 }, x.2)) := by
      intro rp
      unfold feedR
      rw [if_neg h1s, if_pos h.type, if_neg (by decide), if_neg (by simp), if_neg hcb]
      unfold sysexEndPacketR
      rw [hpk, status_sentPk g h.ft hn, h.byte, hsize]
      dsimp only
      have hft := h.ft
      by_cases hf1 : f = 1
      · subst hf1
        have hpos : 0 < d.length := List.length_pos_iff.2 (h.start rfl)
        have hge : ¬ BitVec.ofNat 8 (2 + d.length) < 3 := by
          generalize d.length = k at hlen hpos; interval_cases k <;> decide
        have e : Format.complete.status + BitVec.ofNat 8 d.length = BitVec.ofNat 8 (16 * 0 + d.length) := by
          generalize d.length = k at hlen; interval_cases k <;> rfl
        rw [if_neg (by intro e; exact hge e.2), if_pos (show BitVec.ofNat 8 (16 * 1) = Format.start.status from rfl),
          Packet.setByte_lt _ (by omega), ok_bind, e, putByte1_sentPk, hpk2, if_pos rfl, sysexPacket_sentPk]
        rfl
      · have hne : ¬ BitVec.ofNat 8 (16 * f) = Format.start.status := by
          interval_cases f <;> first | (exact absurd rfl hf1) | decide
        have e : Format.fin.status + BitVec.ofNat 8 d.length = BitVec.ofNat 8 (16 * 3 + d.length) := by
          generalize d.length = k at hlen; interval_cases k <;> rfl
        rw [if_neg (by intro e; exact hne e.1), if_neg hne, Packet.setByte_lt _ (by omega), ok_bind, e, putByte1_sentPk, hpk2, if_neg hf1, sysexPacket_sentPk]
        rfl
    by_cases hen : c.enabled = true
    · left
      refine ⟨rfl, hen, { p with packet := pk }, fun q => .ok { q with packet := {}, packetByte := 2 }, ?_, ?_, ?_⟩
      · exact ⟨h.gt, by split <;> omega, h.len, by split <;> intro e <;> omega, h.byte, ⟨d.length, by omega, hpk2⟩, h.cb, hr.group, hr.cb,
          hr.on, hr.lt, rfl⟩
      · intro rp
        rw [hfd, call_on (s := { p with packet := pk }) (hon.trans hen)]
        cases rp { p with packet := pk } <;> rfl
      · intro c2 st2 p2 hp2 _ _
        have hf := hp2.forget
        exact ⟨_, rfl, Or.inl ⟨hf.group, hf.cb, hf.on, hf.lt, rfl⟩, _, rfl⟩
    · right; left
      have hen : c.enabled = false := by simpa using hen
      refine ⟨rfl, hen, { p with packet := {}, packetByte := 2 }, ⟨hr.group, hr.cb, hr.on, hr.lt, rfl⟩, fun rp => ?_⟩
      rw [hfd, call_off (s := { p with packet := pk }) (hon.trans hen)]
      rfl
  · have hlt : b < 0x80 := hb.resolve_right h7
    right; right
    have hfd : ∀ rp, p.feedR b rp = p.sysexContinuePacketR b rp := by
      intro rp
      unfold feedR
      rw [if_neg h1s, if_pos h.type, if_pos hlt, if_neg hcb]
    by_cases h14 : d.length = 14
    · left
      refine ⟨h7, h14, fun rp => ?_⟩
      rw [hfd]
      unfold sysexContinuePacketR
      rw [hbyte, h14, Packet.setByte, if_neg (by decide)]
      rfl
    have hput : p.packet.setByte p.packetByte.toNat b = .ok (sentPk g f n (d ++ [b])) := by
      rw [hbyte, hpk, Packet.setByte_lt _ (by omega), putByte_sentPk _ _ _ (by omega)]
    have hinc : p.packetByte + 1 = BitVec.ofNat 8 (2 + (d.length + 1)) := by
      rw [h.byte]; generalize d.length = k at hlen; interval_cases k <;> rfl
    have h8 : (p.packetByte + 1 = 8) ↔ d.length + 1 = 6 := by
      rw [hinc]
      generalize d.length = k at hlen; interval_cases k <;> decide
    right
    by_cases h6 : d.length + 1 = 6
    · have hst : (BitVec.ofNat 8 (16 * f) + 6 : Byte) = BitVec.ofNat 8 (16 * f + 6) := by
        have := h.ft; interval_cases f <;> rfl
      obtain ⟨pk, hpk2⟩ : ∃ pk, pk = sysexPacket g f (d ++ [b]) := ⟨_, rfl⟩
      have hpk6 : pk = sentPk g f 6 (d ++ [b]) := by
        rw [hpk2, sysexPacket_sentPk]; simp [h6]
      obtain ⟨pk1, hpk1⟩ : ∃ pk, pk = sentPk g f n (d ++ [b]) := ⟨_, rfl⟩
      have hset : pk1.setByte 1 ((pk1.status &&& 0xF0) + 6) = .ok pk := by
        rw [hpk1, Packet.setByte_lt _ (by omega), status_sentPk g h.ft hn, hst, putByte1_sentPk, hpk6]
      rw [← hpk1] at hput
      rw [← hpk2]
      have hfd2 : ∀ rp, p.feedR b rp =
          (if p.invokeCallbacks = true then ({ p with packet := pk, packetByte := 8 } : Parser).call (.packet pk) rp else
            .ok ({ p with packet := pk1, packetByte := 8 }, [])) >>= fun x =>
          (makeSysex7 .cont x.1.group).map fun k => ({ x.1 with packet := k, packetByte := 2 }, x.2) := by
        intro rp
        rw [hfd]
        unfold sysexContinuePacketR
        rw [hput, ok_bind]
        dsimp only
        rw [if_pos (h8.2 h6), hset, ok_bind, h8.2 h6]
        split
        · cases ({ p with packet := pk, packetByte := 8 } : Parser).call (.packet pk) rp with
          | error f => rfl
          | ok x => rw [ok_bind, ok_bind]; cases makeSysex7 Format.cont x.1.group <;> rfl
        · rw [ok_bind, pure_bind]; dsimp only; cases makeSysex7 Format.cont p.group <;> rfl
      by_cases hen : c.enabled = true
      · left
        refine ⟨h7, h6, hen, { p with packet := pk, packetByte := 8 },
          fun q => (makeSysex7 .cont q.group).map fun k => { q with packet := k, packetByte := 2 }, ?_, ?_, ?_⟩
        · refine ⟨h.gt, h.ft, by simp; omega, fun _ => by simp, by simp [h6], ⟨6, by omega, hpk6⟩, h.cb, hr.group, hr.cb,
            hr.on, hr.lt, rfl⟩
        · intro rp
          rw [hfd2, if_pos (hon.trans hen), call_on (s := { p with packet := pk, packetByte := 8 }) (hon.trans hen)]
          cases rp { p with packet := pk, packetByte := 8 } with
          | error f => rfl
          | ok x =>
            rw [ok_bind]
            show ((makeSysex7 Format.cont x.1.group).map fun q => (({ x.1 with packet := q, packetByte := 2 } : Parser),
              Event.packet pk :: x.2)) = _
            cases makeSysex7 Format.cont x.1.group <;> rfl
        · intro c2 st2 p2 hp2 hcb2 _
          obtain ⟨hmk, hrel⟩ := continuePacket_resumed hp2 (by rw [hcb2]; exact h.cb) (d := d ++ [b]) (by simp [h6]) (by simp) true
          exact ⟨_, by rw [hmk]; rfl, Or.inl hrel, _, rfl⟩
      · right; left
        have hen : c.enabled = false := by simpa using hen
        obtain ⟨hmk, hrel⟩ := continuePacket_resumed (st := .sent g f d) (p := p) h h.cb (d := d ++ [b]) (by simp [h6]) (by simp) true
        refine ⟨h7, h6, hen, _, hrel, fun rp => ?_⟩
        rw [hfd2, if_neg (by rw [hon, hen]; simp), ok_bind, hmk]
        rfl
    · right; right
      obtain ⟨pk, hpk2⟩ : ∃ pk, pk = sentPk g f n (d ++ [b]) := ⟨_, rfl⟩
      rw [← hpk2] at hput
      refine ⟨h7, by omega, h6, { p with packet := pk, packetByte := p.packetByte + 1 }, ?_, fun rp => ?_⟩
      · refine ⟨h.gt, h.ft, by simp; omega, fun _ => by simp, by rw [List.length_append]; exact hinc, ⟨n, hn, hpk2⟩, h.cb, hr.group, hr.cb,
          hr.on, hr.lt, rfl⟩
      · rw [hfd]
        unfold sysexContinuePacketR
        rw [hput, ok_bind]
        dsimp only
        rw [if_neg (by rw [h8]; exact h6)]
        rfl

theorem innerSent_rel {c : Settings} {g : Byte} {f : Nat} {d : List Byte} {p : Parser} (h : SentRel c g f d p) {b : Byte}
    (hb : b < 0x80 ∨ b = 0xF7)
    {rs : Settings → InnerState → Option (Settings × InnerState × List Event)} {rp : Reaction} (hr : Sim rs rp) :
    (∀ c' st' es, innerSent c g f d b rs = some (c', st', es) →
      c'.sysexCallback = c.sysexCallback ∧ ∃ p', p.feedR b rp = .ok (p', es) ∧ InnerRel c' st' p') ∧
    (innerSent c g f d b rs = none → p.feedR b rp = .error .assertFailed) := by
  unfold innerSent
  rcases sent_shape h hb with ⟨h7, hen, m, post, hcall⟩ | ⟨h7, hen, p1, r1, hf⟩ | ⟨h7, h14, hf⟩ | ⟨h7, h6, hen, m, post, hcall⟩ |
    ⟨h7, h6, hen, p1, r1, hf⟩ | ⟨h7, h14, h6, p1, r1, hf⟩
  · rw [if_pos h7, if_pos hen]
    obtain ⟨s1, s2⟩ := hcall.sim hr
    constructor
    · intro c' st' es he
      simp only [Option.bind_eq_bind, Option.bind_eq_some_iff, Option.pure_def, Option.some.injEq, Prod.mk.injEq] at he
      obtain ⟨⟨c2, st2, es2⟩, hrs, rfl, rfl, rfl⟩ := he
      obtain ⟨⟨a, -⟩, b⟩ := s1 c2 st2 es2 hrs
      exact ⟨a, b⟩
    · intro he
      refine s2 ?_
      cases hrs : rs c (.sent g (if f = 1 then 0 else 3) d) with
      | none => rfl
      | some x => rw [hrs] at he; cases he
  · rw [if_pos h7, if_neg (by simp [hen])]
    refine ⟨fun c' st' es he => ?_, fun he => by cases he⟩
    simp only [Option.some.injEq, Prod.mk.injEq] at he
    obtain ⟨rfl, rfl, rfl⟩ := he
    exact ⟨rfl, p1, hf rp, Or.inl r1⟩
  · rw [if_neg h7, if_pos h14]
    exact ⟨fun c' st' es he => (by cases he), fun _ => hf rp⟩
  · rw [if_neg h7, if_neg (by omega), if_pos h6, if_pos hen]
    obtain ⟨s1, s2⟩ := hcall.sim hr
    constructor
    · intro c' st' es he
      simp only [Option.bind_eq_bind, Option.bind_eq_some_iff, Option.pure_def, Option.some.injEq, Prod.mk.injEq] at he
      obtain ⟨⟨c2, st2, es2⟩, hrs, rfl, rfl, rfl⟩ := he
      obtain ⟨⟨a, -⟩, b⟩ := s1 c2 st2 es2 hrs
      exact ⟨a, b⟩
    · intro he
      refine s2 ?_
      cases hrs : rs c (.sent g f (d ++ [b])) with
      | none => rfl
      | some x => rw [hrs] at he; cases he
  · rw [if_neg h7, if_neg (by omega), if_pos h6, if_neg (by simp [hen])]
    refine ⟨fun c' st' es he => ?_, fun he => by cases he⟩
    simp only [Option.some.injEq, Prod.mk.injEq] at he
    obtain ⟨rfl, rfl, rfl⟩ := he
    exact ⟨rfl, p1, hf rp, Or.inl r1⟩
  · rw [if_neg h7, if_neg (by omega), if_neg h6]
    refine ⟨fun c' st' es he => ?_, fun he => by cases he⟩
    simp only [Option.some.injEq, Prod.mk.injEq] at he
    obtain ⟨rfl, rfl, rfl⟩ := he
    exact ⟨rfl, p1, hf rp, r1⟩

/-- Bytes between 80 and F7 do not depend on the rest of a message that is not sysex. -/
theorem feedStatusR_packet (p : Parser) (q : Packet) {b : Byte} (h2 : ¬ b < 0x80) (r : Reaction) :
    feedStatusR { p with packet := q } b r = p.feedStatusR b r := by
  unfold feedStatusR
  split
  · rfl
  · split
    · rfl
    · split
      · rfl
      · next h => exact absurd (by simpa using h2) h

theorem innerByte_rel {c : Settings} {st : InnerState} {p : Parser} (h : InnerRel c st p) {b : Byte}
    {rs : Settings → InnerState → Option (Settings × InnerState × List Event)} {rp : Reaction} (hr : Sim rs rp) :
    (∀ c' st' es, innerByte c st b rs = some (c', st', es) →
      (c'.sysexCallback = c.sysexCallback ∧ (IsPlain st → IsPlain st')) ∧
        ∃ p', p.feedR b rp = .ok (p', es) ∧ InnerRel c' st' p') ∧
    (innerByte c st b rs = none → p.feedR b rp = .error .assertFailed) := by
  unfold innerByte
  by_cases h1 : b ≥ 0xF8
  · rw [if_pos h1]
    have hf := h.forget
    have hF : ¬ b < 0xF0 := by clear * - h1; revert h1; revert b; decide +kernel
    have hfeed : p.feedR b rp = p.systemRealtimeR b rp := by unfold feedR; rw [if_pos (show b ≥ SystemStatus.clock from h1)]
    rw [hfeed]
    unfold systemRealtimeR
    have silent : ∀ x : Except Fault (Parser × List Event), x = .ok (p, []) →
        (∀ c' st' es, (some (c, st, []) : Option (Settings × InnerState × List Event)) = some (c', st', es) →
          (c'.sysexCallback = c.sysexCallback ∧ (IsPlain st → IsPlain st')) ∧ ∃ p', x = .ok (p', es) ∧ InnerRel c' st' p') ∧
        ((some (c, st, []) : Option (Settings × InnerState × List Event)) = none → x = .error .assertFailed) := by
      intro x hx
      refine ⟨fun c' st' es he => ?_, fun he => by cases he⟩
      simp only [Option.some.injEq, Prod.mk.injEq] at he
      obtain ⟨rfl, rfl, rfl⟩ := he
      exact ⟨⟨rfl, id⟩, p, hx, h⟩
    by_cases hu : b = 0xF9 ∨ b = 0xFD
    · rw [if_neg (show ¬ (c.enabled = true ∧ b ≠ 0xF9 ∧ b ≠ 0xFD) by tauto), if_pos hu]
      exact silent _ rfl
    · rw [if_neg hu]
      by_cases hon : c.enabled = true
      · rw [if_pos (show c.enabled = true ∧ b ≠ 0xF9 ∧ b ≠ 0xFD by tauto),
          call_on (show p.invokeCallbacks = true by rw [show p.invokeCallbacks = c.enabled from hf.on]; exact hon),
          show p.group = c.group from hf.group, makeSystem_short hf.lt hF, shortMessage_nil]
        constructor
        · intro c' st' es he
          simp only [Option.bind_eq_bind, Option.bind_eq_some_iff, Option.pure_def, Option.some.injEq, Prod.mk.injEq] at he
          obtain ⟨⟨c2, st2, es2⟩, hrs, rfl, rfl, rfl⟩ := he
          obtain ⟨hcb, p2, ep, hp2⟩ := (hr c st p h).1 c2 st2 es2 hrs
          exact ⟨hcb, p2, by rw [ep]; rfl, hp2⟩
        · intro he
          have hrs : rs c st = none := by
            cases hrs : rs c st with
            | none => rfl
            | some x => rw [hrs] at he; cases he
          rw [(hr c st p h).2 hrs]; rfl
      · rw [if_neg (show ¬ (c.enabled = true ∧ b ≠ 0xF9 ∧ b ≠ 0xFD) by tauto)]
        refine silent _ ?_
        rw [call_off]
        rw [show p.invokeCallbacks = c.enabled from hf.on]; simpa using hon
  · rw [if_neg h1]
    have h1s : ¬ b ≥ SystemStatus.clock := h1
    have hempty : ∀ q : Parser, q = { p with packet := {} } → q.feedR b rp = q.feedStatusR b rp := by
      rintro q rfl
      unfold feedR
      rw [if_neg h1s, if_neg (show ¬ ({} : Packet).type = PacketType.data from type_empty)]
    have weaken : ∀ {o : Option (Settings × InnerState × List Event)} {x : Except Fault (Parser × List Event)},
        ((∀ c' st' es, o = some (c', st', es) → (c'.sysexCallback = c.sysexCallback ∧ IsPlain st') ∧
          ∃ p', x = .ok (p', es) ∧ InnerRel c' st' p') ∧ (o = none → x = .error .assertFailed)) →
        ((∀ c' st' es, o = some (c', st', es) → (c'.sysexCallback = c.sysexCallback ∧ (IsPlain st → IsPlain st')) ∧
          ∃ p', x = .ok (p', es) ∧ InnerRel c' st' p') ∧ (o = none → x = .error .assertFailed)) := by
      intro o x hx
      exact ⟨fun c' st' es he => ⟨⟨(hx.1 c' st' es he).1.1, fun _ => (hx.1 c' st' es he).1.2⟩, (hx.1 c' st' es he).2⟩, hx.2⟩
    match st with
    | .plain st =>
      dsimp only
      rcases h with h | ⟨rfl, ht, hs, hm, h⟩
      · exact weaken (innerStep_rel h h1 hr)
      · by_cases h2 : b < 0x80
        · unfold innerStep
          dsimp only
          rw [step_idle c h2]
          have hnext : (byteEvents c .idle b).1 = .idle := congrArg Prod.fst (step_idle c h2)
          rw [hnext]
          refine ⟨fun c' st' es he => ?_, fun he => by cases he⟩
          simp only [Option.some.injEq, Prod.mk.injEq] at he
          obtain ⟨rfl, rfl, rfl⟩ := he
          refine ⟨⟨rfl, id⟩, p, ?_, Or.inr ⟨rfl, ht, hs, hm, h⟩⟩
          unfold feedR
          rw [if_neg h1s, if_neg ht]
          unfold feedStatusR
          have hn : b ≠ 0xF0 ∧ ¬ b > 0xF0 ∧ ¬ b ≥ 0x80 := by
            clear * - h2; revert h2; revert b; decide +kernel
          rw [if_neg hn.1, if_neg hn.2.1, if_neg hn.2.2]
          unfold dataByteR
          rw [if_neg (by intro hh; exact hh.2.1 hm)]
        · have e := hempty _ rfl
          rw [feedStatusR_packet p {} h2] at e
          have e2 : p.feedR b rp = p.feedStatusR b rp := by
            unfold feedR
            rw [if_neg h1s, if_neg ht]
          rw [e2, ← e]
          exact weaken (innerStep_rel h h1 hr)
    | .sent g f d =>
      dsimp only
      by_cases hm : b < 0x80 ∨ b = 0xF7
      · rw [if_pos hm]
        obtain ⟨s1, s2⟩ := innerSent_rel h hm hr
        exact ⟨fun c' st' es he => ⟨⟨(s1 c' st' es he).1, fun x => by obtain ⟨_, x⟩ := x; cases x⟩, (s1 c' st' es he).2⟩, s2⟩
      · rw [if_neg hm]
        have e2 : p.feedR b rp = { p with packet := {} }.feedR b rp := by
          rw [hempty _ rfl]
          unfold feedR
          rw [if_neg h1s, if_pos h.type, if_neg (by tauto), if_pos (by tauto)]
        rw [e2]
        exact weaken (innerStep_rel h.rest h1 hr)

theorem InnerRel.reset {c : Settings} {st : InnerState} {p : Parser} (h : InnerRel c st p) : InnerRel c (.plain .idle) p.reset :=
  have h := h.forget
  Or.inl ⟨h.group, h.cb, h.on, h.lt, rfl⟩

theorem InnerRel.setGroup {c : Settings} {st : InnerState} {p : Parser} (h : InnerRel c st p) {g : Byte} (hg : g < 16) :
    InnerRel { c with group := g } st (p.setGroup g) := by
  have hf := h.forget
  have hf' : ParserRel { c with group := g } .idle { p.setGroup g with packet := {} } := ⟨rfl, hf.cb, hf.on, hg, rfl⟩
  match st with
  | .plain st =>
    rcases h with h | ⟨rfl, ht, hs, hm, h⟩
    · exact Or.inl ⟨rfl, h.cb, h.on, hg, h.state⟩
    · exact Or.inr ⟨rfl, ht, hs, hm, hf'⟩
  | .sent .. => exact ⟨h.gt, h.ft, h.len, h.start, h.byte, h.packet, h.cb, hf'⟩

theorem InnerRel.enable {c : Settings} {st : InnerState} {p : Parser} (h : InnerRel c st p) (on : Bool) :
    InnerRel { c with enabled := on } st (p.enableCallbacks on) := by
  have hf := h.forget
  have hf' : ParserRel { c with enabled := on } .idle { p.enableCallbacks on with packet := {} } :=
    ⟨hf.group, hf.cb, rfl, hf.lt, rfl⟩
  match st with
  | .plain st =>
    rcases h with h | ⟨rfl, ht, hs, hm, h⟩
    · exact Or.inl ⟨h.group, h.cb, rfl, h.lt, h.state⟩
    · exact Or.inr ⟨rfl, ht, hs, hm, hf'⟩
  | .sent .. => exact ⟨h.gt, h.ft, h.len, h.start, h.byte, h.packet, h.cb, hf'⟩

mutual
theorem innerCall_rel : ∀ (o : Call), (∀ g, SetsGroup o g → g < 16) → Sim (fun c st => innerCall c st o) (fun p => p.perform o)
  | .feed b l, hg => by
    intro c st p h
    have ih := innerCalls_rel l (fun o ho g hs => hg g (.inside b l o g ho hs))
    simp only [innerCall, Parser.perform]
    exact innerByte_rel h ih
  | .setGroup g, hg => by
    intro c st p h
    simp only [innerCall, Parser.perform]
    refine ⟨fun c' st' es he => ?_, fun he => by cases he⟩
    simp only [Option.some.injEq, Prod.mk.injEq] at he
    obtain ⟨rfl, rfl, rfl⟩ := he
    exact ⟨⟨rfl, id⟩, _, rfl, h.setGroup (hg g (.here g))⟩
  | .enable on, _ => by
    intro c st p h
    simp only [innerCall, Parser.perform]
    refine ⟨fun c' st' es he => ?_, fun he => by cases he⟩
    simp only [Option.some.injEq, Prod.mk.injEq] at he
    obtain ⟨rfl, rfl, rfl⟩ := he
    exact ⟨⟨rfl, id⟩, _, rfl, h.enable on⟩
  | .reset, _ => by
    intro c st p h
    simp only [innerCall, Parser.perform]
    refine ⟨fun c' st' es he => ?_, fun he => by cases he⟩
    simp only [Option.some.injEq, Prod.mk.injEq] at he
    obtain ⟨rfl, rfl, rfl⟩ := he
    exact ⟨⟨rfl, fun _ => ⟨_, rfl⟩⟩, _, rfl, h.reset⟩

theorem innerCalls_rel : ∀ (l : List Call), (∀ o ∈ l, ∀ g, SetsGroup o g → g < 16) →
    Sim (fun c st => innerCalls c st l) (fun p => p.performAll l)
  | [], _ => by
    intro c st p h
    simp only [innerCalls, Parser.performAll]
    refine ⟨fun c' st' es he => ?_, fun he => by cases he⟩
    simp only [Option.some.injEq, Prod.mk.injEq] at he
    obtain ⟨rfl, rfl, rfl⟩ := he
    exact ⟨⟨rfl, id⟩, p, rfl, h⟩
  | o :: l, hg => by
    intro c st p h
    have s1 := innerCall_rel o (hg o (by simp)) c st p h
    have s2 := fun c1 st1 p1 r1 => innerCalls_rel l (fun o ho => hg o (by simp [ho])) c1 st1 p1 r1
    simp only [innerCalls, Parser.performAll]
    dsimp only at s1 s2
    cases h1 : innerCall c st o with
    | none =>
      refine ⟨fun c' st' es he => (by cases he), fun _ => ?_⟩
      rw [s1.2 h1]; rfl
    | some x =>
      obtain ⟨c1, st1, es1⟩ := x
      obtain ⟨a1, p1, e1, r1⟩ := s1.1 c1 st1 es1 h1
      obtain ⟨s3, s4⟩ := s2 c1 st1 p1 r1
      rw [e1, ok_bind]
      dsimp only
      cases h2 : innerCalls c1 st1 l with
      | none =>
        refine ⟨fun c' st' es he => ?_, fun _ => ?_⟩
        · simp only [Option.bind_eq_bind, Option.bind_some, h2, Option.bind_none] at he; cases he
        · rw [s4 h2]; rfl
      | some y =>
        obtain ⟨c2, st2, es2⟩ := y
        obtain ⟨a2, p2, e2, r2⟩ := s3 c2 st2 es2 h2
        refine ⟨fun c' st' es he => ?_, fun he => ?_⟩
        · simp only [Option.bind_eq_bind, Option.bind_some, h2, Option.pure_def, Option.some.injEq, Prod.mk.injEq] at he
          obtain ⟨rfl, rfl, rfl⟩ := he
          exact ⟨⟨a2.1.trans a1.1, fun x => a2.2 (a1.2 x)⟩, p2, by rw [e2, ok_bind]; rfl, r2⟩
        · simp only [Option.bind_eq_bind, Option.bind_some, h2, Option.pure_def] at he; cases he
end

end Midi
