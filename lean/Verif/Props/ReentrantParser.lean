import Verif.Lemmas.ReentrantGood
import Verif.Props.ByteStreamNormal

/-!
# C64, C65: callbacks of the byte stream parser that use the parser
-/

namespace Midi
open Spec

/-! ## Callbacks that do nothing -/

/-- A callback that leaves the parser alone. -/
def leave : Parser.Reaction := fun p => .ok (p, [])

theorem call_leave (s : Parser) (q : Packet) : s.call (.packet q) leave = .ok (s, s.post q) := by
  unfold Parser.call Parser.post leave
  cases s.invokeCallbacks <;> rfl

theorem sysexContinuePacketR_leave (p : Parser) (b : Byte) : p.sysexContinuePacketR b leave = p.sysexContinuePacket b := by
  unfold Parser.sysexContinuePacketR Parser.sysexContinuePacket
  cases p.packet.setByte p.packetByte.toNat b with
  | error f => rfl
  | ok q =>
    simp only [ok_bind]
    split
    · cases hi : p.invokeCallbacks
      · simp only [Bool.false_eq_true, if_false, pure_eq_ok, ok_bind]
      · simp only [if_true]
        cases q.setByte 1 ((q.status &&& 0xF0) + 6) with
        | error f => rfl
        | ok q' =>
          simp only [ok_bind, call_leave, pure_eq_ok]
          simp [Parser.post, hi]
    · rfl

theorem sysexEndPacketR_leave (p : Parser) : p.sysexEndPacketR leave = p.sysexEndPacket := by
  unfold Parser.sysexEndPacketR Parser.sysexEndPacket
  dsimp only
  split
  · rfl
  · cases p.packet.setByte 1 ((if p.packet.status &&& 0xF0 = Format.start.status then Format.complete.status else
      Format.fin.status) + ((p.packetByte - 2) &&& 0x0F)) with
    | error f => rfl
    | ok q => simp only [ok_bind, call_leave, pure_eq_ok]; rfl

theorem dataByteR_leave (p : Parser) (b : Byte) : p.dataByteR b leave = p.dataByte b := by
  unfold Parser.dataByteR Parser.dataByte
  split
  · cases p.packet.setByte p.packetByte.toNat b with
    | error f => rfl
    | ok q =>
      simp only [ok_bind]
      split
      · simp only [call_leave, ok_bind, pure_eq_ok]
      · rfl
  · rfl

theorem feedR_leave (p : Parser) (b : Byte) : p.feedR b leave = p.feed b := by
  have common : ∀ s : Parser, s.systemCommonR b leave = .ok (s.systemCommon b) := by
    intro s
    unfold Parser.systemCommonR Parser.systemCommon
    simp only [call_leave, ok_bind, pure_eq_ok]
    repeat' split
    all_goals rfl
  have voice : ∀ s : Parser, s.channelVoiceR b leave = .ok (s.channelVoice b) := by
    intro s
    unfold Parser.channelVoiceR Parser.channelVoice
    simp only [call_leave, pure_eq_ok]
    repeat' split
    all_goals rfl
  have status : ∀ s : Parser, s.feedStatusR b leave = s.feedStatus b := by
    intro s
    unfold Parser.feedStatusR Parser.feedStatus
    rw [common, voice, dataByteR_leave]
  unfold Parser.feedR Parser.feed
  rw [status, status, sysexContinuePacketR_leave, sysexEndPacketR_leave]
  have rt : p.systemRealtimeR b leave = .ok (p.systemRealtime b) := by
    unfold Parser.systemRealtimeR Parser.systemRealtime
    split
    · rfl
    · rw [call_leave]
  have ends : p.sysexEndCallbackR leave = .ok p.sysexEndCallback := by
    unfold Parser.sysexEndCallbackR Parser.sysexEndCallback Parser.call leave
    dsimp only
    split
    · rfl
    · cases p.invokeCallbacks <;> rfl
  rw [rt, ends]

theorem performAll_append (a b : List Parser.Call) : ∀ p : Parser, p.performAll (a ++ b) =
    (p.performAll a >>= fun r => (r.1.performAll b).map fun x => (x.1, r.2 ++ x.2)) := by
  induction a with
  | nil =>
    intro p
    simp only [List.nil_append, Parser.performAll, ok_bind]
    cases p.performAll b <;> rfl
  | cons o a ih =>
    intro p
    simp only [List.cons_append, Parser.performAll]
    cases p.perform o with
    | error f => rfl
    | ok v =>
      simp only [ok_bind]
      rw [ih]
      cases v.1.performAll a with
      | error f => rfl
      | ok w =>
        simp only [ok_bind, pure_eq_ok]
        cases w.1.performAll b with
        | error f => rfl
        | ok x => simp [Except.map, ok_bind]

/-- C65: with callbacks that leave the parser alone, this is the parser of C25 to C32. -/
theorem C65_plain (bs : List Byte) : ∀ p : Parser, p.performAll (plainBytes bs) = p.feedAll bs := by
  induction bs with
  | nil => intro p; simp only [plainBytes, List.map_nil, Parser.performAll, Parser.feedAll]
  | cons b bs ih =>
    intro p
    have e : p.perform (.feed b []) = p.feed b := by
      simp only [Parser.perform, Parser.performAll]
      exact feedR_leave p b
    unfold plainBytes at ih ⊢
    simp only [List.map_cons, Parser.performAll, Parser.feedAll]
    rw [e]
    cases p.feed b with
    | error f => rfl
    | ok v => simp only [ok_bind, ih]

/-! ## C64: nothing goes wrong, except for data bytes while a sysex packet is being sent -/

theorem events_good {G : List Byte} (hG : ∀ k ∈ G, k < 16) {cb : Bool} {es : List Event} (good : ∀ e ∈ es, GoodEvent G cb e) :
    (∀ q, .packet q ∈ es → WellFormed1 G q ∧ (cb = true → ¬ IsSysex7 q)) ∧ (∀ s, .sysex s ∈ es → cb = true ∧ Is7Bit s) := by
  refine ⟨?_, ?_⟩
  · intro q hq
    have h := good _ hq
    generalize hev : Event.packet q = ev at h
    cases h with
    | short g' s d hg' hs hl hd =>
      simp only [Event.packet.injEq] at hev; subst hev
      refine ⟨wellFormed_short _ hg' (hG _ hg') hs hl hd, fun _ h7 => ?_⟩
      have := h7.1
      rw [byteAt_short_0, shortHead_type (hG _ hg')] at this
      split at this <;> omega
    | data g' f d hg' hl hd hc =>
      simp only [Event.packet.injEq] at hev; subst hev
      exact ⟨wellFormed_sysex _ f hg' (hG _ hg') hl hd, fun h => absurd (h.symm.trans hc) (by simp)⟩
    | sysex d hd hc => simp at hev
  · intro s hs
    have h := good _ hs
    generalize hev : Event.sysex s = ev at h
    cases h with
    | sysex d hd hc => simp only [Event.sysex.injEq] at hev; subst hev; exact ⟨hc, is7Bit_message7 hd⟩
    | _ => simp at hev

theorem calls_safe (g : Byte) (cb on : Bool) (cs : List Parser.Call) (G : List Byte) (hG : ∀ k ∈ G, k < 16) (hg : g ∈ G)
    (hv : ∀ o ∈ cs, ∀ k, SetsGroup o k → k ∈ G) (hf : cb = true ∨ PoliteAll cs) :
    ∃ p es, (Parser.new g cb on).performAll cs = .ok (p, es) ∧
      (∀ q, .packet q ∈ es → WellFormed1 G q ∧ (cb = true → ¬ IsSysex7 q)) ∧ (∀ s, .sysex s ∈ es → cb = true ∧ Is7Bit s) := by
  obtain ⟨c', st', es, e, -, -, -, -, good⟩ := innerCalls_good G cs hv ⟨g, cb, on⟩ (.plain .idle) hg trivial (by
    rcases hf with hf | hf
    · exact Or.inl ⟨hf, _, rfl⟩
    · exact Or.inr ⟨hf, Or.inl ⟨_, rfl⟩⟩)
  obtain ⟨-, p, ep, -⟩ := (innerCalls_rel cs (fun o ho k hk => hG k (hv o ho k hk)) ⟨g, cb, on⟩ (.plain .idle) (Parser.new g cb on)
    (Or.inl (new_rel (hG g hg) cb on))).1 _ _ _ e
  exact ⟨p, es, ep, events_good hG good⟩

/-- C64, for parsers with a sysex callback: whatever calls of the parser its callbacks make, to any depth (with groups below 16),
there is no access out of range and no failed assertion, and all packets and messages delivered are well formed. -/
theorem C64_with_sysex_callback_partial (g : Byte) (on : Bool) (cs : List Parser.Call) (G : List Byte) (hG : ∀ k ∈ G, k < 16) (hg : g ∈ G)
    (hv : ∀ o ∈ cs, ∀ k, SetsGroup o k → k ∈ G) :
    ∃ p es, (Parser.new g true on).performAll cs = .ok (p, es) ∧
      (∀ q, .packet q ∈ es → WellFormed1 G q ∧ ¬ IsSysex7 q) ∧ (∀ s, .sysex s ∈ es → Is7Bit s) := by
  obtain ⟨p, es, e, h1, h2⟩ := calls_safe g true on cs G hG hg hv (Or.inl rfl)
  exact ⟨p, es, e, fun q hq => ⟨(h1 q hq).1, (h1 q hq).2 rfl⟩, fun s hs => (h2 s hs).2⟩

/-- C64, for parsers without sysex callback: the same, if every callback that feeds the parser begins with a status byte other than
sysex end, or resets the parser first. -/
theorem C64_status_first_partial (g : Byte) (on : Bool) (cs : List Parser.Call) (G : List Byte) (hG : ∀ k ∈ G, k < 16) (hg : g ∈ G)
    (hv : ∀ o ∈ cs, ∀ k, SetsGroup o k → k ∈ G) (hp : PoliteAll cs) :
    ∃ p es, (Parser.new g false on).performAll cs = .ok (p, es) ∧
      (∀ q, .packet q ∈ es → WellFormed1 G q) ∧ (∀ s, .sysex s ∉ es) := by
  obtain ⟨p, es, e, h1, h2⟩ := calls_safe g false on cs G hG hg hv (Or.inr hp)
  exact ⟨p, es, e, fun q hq => (h1 q hq).1, fun s hs => by simpa using (h2 s hs).1⟩

/-- C64, whatever the callbacks do: if nothing fails, the packets and messages are well formed, except for packets with sysex, which
may have too many data bytes, up to fourteen. -/
theorem C64_delivered_partial (g : Byte) (cb on : Bool) (cs : List Parser.Call) (G : List Byte) (hG : ∀ k ∈ G, k < 16) (hg : g ∈ G)
    (hv : ∀ o ∈ cs, ∀ k, SetsGroup o k → k ∈ G) (p : Parser) (es : List Event)
    (h : (Parser.new g cb on).performAll cs = .ok (p, es)) :
    (∀ q, .packet q ∈ es → WellFormed1 G q ∧ (cb = true → ¬ IsSysex7 q) ∨
      cb = false ∧ ∃ k ∈ G, ∃ f < 4, ∃ d : List Byte, 6 < d.length ∧ d.length ≤ 14 ∧ (∀ b ∈ d, b < 0x80) ∧ q = sysexPacket k f d) ∧
    (∀ s, .sysex s ∈ es → cb = true ∧ Is7Bit s) := by
  obtain ⟨h1, h2⟩ := innerCalls_rel cs (fun o ho k hk => hG k (hv o ho k hk)) ⟨g, cb, on⟩ (.plain .idle) (Parser.new g cb on)
    (Or.inl (new_rel (hG g hg) cb on))
  dsimp only at h1 h2
  cases hm : innerCalls ⟨g, cb, on⟩ (.plain .idle) cs with
  | none => rw [h2 hm] at h; cases h
  | some x =>
    obtain ⟨c, st, fs⟩ := x
    obtain ⟨-, q, ep, -⟩ := h1 c st fs hm
    rw [h] at ep
    obtain ⟨rfl, rfl⟩ := Prod.mk.inj (Except.ok.inj ep)
    have o := innerCalls_outcome G cs hv ⟨g, cb, on⟩ (.plain .idle) _ _ _ hg trivial (Or.inl ⟨_, rfl⟩) hm
    refine ⟨fun q hq => ?_, fun s hs => ?_⟩
    · rcases o.events _ hq with he | ⟨hcb, k, f, d, hk, hf, h6, h14, hd, hq⟩
      · exact Or.inl ((events_good hG (es := [.packet q]) (by simpa using he)).1 q (by simp))
      · cases hq
        exact Or.inr ⟨hcb, k, hk, f, hf, d, h6, h14, hd, rfl⟩
    · rcases o.events _ hs with he | ⟨-, k, f, d, -, -, -, -, -, hq⟩
      · exact (events_good hG (es := [.sysex s]) (by simpa using he)).2 s (by simp)
      · cases hq

theorem overflow (xs : List Byte) : ∀ (p : Parser) (k : Nat), p.packet.type = PacketType.data → p.hasSysexCallback = false →
    p.packetByte.toNat = k → 8 ≤ k → k ≤ 16 → 16 < k + xs.length → (∀ x ∈ xs, x < 0x80) →
    p.performAll (plainBytes xs) = .error .assertFailed := by
  induction xs with
  | nil => intro p k _ _ _ _ h1 h2; simp at h2; omega
  | cons x xs ih =>
    intro p k ht hcb hk h8 h16 hlen hx
    have hx0 := hx x (by simp)
    have hfeed : ∀ r, p.feedR x r = p.sysexContinuePacketR x r := by
      intro r
      unfold Parser.feedR
      rw [if_neg (show ¬ x ≥ SystemStatus.clock by clear * - hx0; revert hx0; revert x; decide +kernel), if_pos ht, if_pos hx0,
        if_neg (by simp [hcb])]
    unfold plainBytes at ih ⊢
    simp only [List.map_cons, Parser.performAll, Parser.perform, hfeed]
    by_cases hkk : k = 16
    · have : ∀ r, p.sysexContinuePacketR x r = .error .assertFailed := by
        intro r
        unfold Parser.sysexContinuePacketR Packet.setByte
        rw [hk, if_neg (by omega)]; rfl
      rw [this]; rfl
    · have hb : (p.packetByte + 1).toNat = k + 1 := by
        rw [BitVec.toNat_add, hk]
        show (k + 1) % 256 = k + 1
        omega
      have hne : p.packetByte + 1 ≠ 8 := by
        intro h
        rw [h] at hb
        have : (8 : Byte).toNat = 8 := rfl
        omega
      have : ∀ r, p.sysexContinuePacketR x r = .ok ({ p with packet := p.packet.putByte k x, packetByte := p.packetByte + 1 }, []) := by
        intro r
        unfold Parser.sysexContinuePacketR Packet.setByte
        rw [hk, if_pos (by omega), ok_bind]
        dsimp only
        rw [if_neg hne]; rfl
      rw [this, ok_bind]
      dsimp only
      rw [ih { p with packet := p.packet.putByte k x, packetByte := p.packetByte + 1 } (k + 1) ?_ hcb hb (by omega) (by omega) (by simp at hlen; omega) (fun y hy => hx y (by simp [hy]))]
      · rfl
      · show (p.packet.putByte k x).type = _
        rw [Packet.type_eq, Packet.byteAt_putByte _ (by omega) (by omega), if_neg (by omega), ← Packet.type_eq]
        exact ht

theorem stepBytes_sysex_data (c : Settings) (hc : c.sysexCallback = false) (w : Bool) : ∀ (l d : List Byte),
    (∀ b ∈ l, b < 0x80) → (stepBytes c (.sysex c.group w d) l).1 = .sysex c.group w (d ++ l) := by
  intro l
  induction l with
  | nil => intro d _; simp [stepBytes]
  | cons b l ih =>
    intro d h
    rw [stepBytes_cons, step_sysex_packet c c.group w d (h b (by simp)) hc]
    have : (if (d.length + 1) % 6 = 0 then (StreamState.sysex c.group w (d ++ [b]), if c.enabled then
        [Event.packet (sysexPacket c.group (if d.length < 6 then 1 else 2) ((d ++ [b]).drop (d.length + 1 - 6)))] else [])
      else (.sysex c.group w (d ++ [b]), [])).1 = .sysex c.group w (d ++ [b]) := by split <;> rfl
    dsimp only
    rw [this, ih _ (fun x hx => h x (by simp [hx]))]
    simp

/-- C64 is false without sysex callback: whenever the callback for a packet with six bytes of sysex feeds nine data bytes or more,
the ninth one fails the assertion, as there is no space for it in the packet. -/
theorem C64_overflow (g : Byte) (hg : g < 16) (d : List Byte) (b : Byte) (xs : List Byte) (hd : d.length % 6 = 5)
    (h7 : ∀ x ∈ d, x < 0x80) (hb : b < 0x80) (hx : 9 ≤ xs.length) (hx7 : ∀ x ∈ xs, x < 0x80) :
    (Parser.new g false true).performAll (plainBytes (0xF0 :: d) ++ [.feed b (plainBytes xs)]) = .error .assertFailed := by
  obtain ⟨p, e, r⟩ := feedAll_rel (0xF0 :: d) (new_rel hg false true)
  have hst : (stepBytes ⟨g, false, true⟩ .idle (0xF0 :: d)).1 = .sysex g true d := by
    rw [stepBytes_cons, step_start]
    exact stepBytes_sysex_data ⟨g, false, true⟩ rfl true d [] h7
  rw [hst] at r
  rw [performAll_append, C65_plain, e]
  simp only [ok_bind, Parser.performAll, Parser.perform]
  have hcb : p.hasSysexCallback = false := r.cb
  obtain ⟨m, hm, h8, hmr⟩ := continuePacket_event r (b := b) rfl (by omega) rfl
  have hfeed : ∀ k, p.feedR b k = p.sysexContinuePacketR b k := by
    intro k
    have ht : p.packet.type = PacketType.data := r.type_sysex
    unfold Parser.feedR
    rw [if_neg (show ¬ b ≥ SystemStatus.clock by clear * - hb; revert hb; revert b; decide +kernel), if_pos ht, if_pos hb,
      if_neg (by simp [hcb])]
  rw [hfeed, hmr]
  have hov := overflow xs m 8 hm.type (by have := hm.forget.cb; exact this) (by rw [h8]; rfl) (by omega) (by omega) (by omega) hx7
  rw [hov]; rfl

-- the hypotheses are met: six bytes of sysex, and nine data bytes in the callback
example : ([1, 2, 3, 4, 5] : List Byte).length % 6 = 5 ∧ (∀ x ∈ ([1, 2, 3, 4, 5] : List Byte), x < 0x80) ∧ (6 : Byte) < 0x80 ∧
    9 ≤ ([0, 1, 2, 3, 4, 5, 6, 7, 8] : List Byte).length ∧ ∀ x ∈ ([0, 1, 2, 3, 4, 5, 6, 7, 8] : List Byte), x < 0x80 := by decide

-- callbacks that answer a note on by another message and a clock by a new group, to depth two
example : PoliteAll [.feed 0x90 [], .feed 0x3C [], .feed 0x40 [.feed 0x80 [], .feed 1 [], .feed 2 [.feed 0xF8 [.setGroup 3], .reset]],
    .feed 0xF8 [.setGroup 2]] := by
  simp [PoliteAll, Polite, Opens]

/-! ## C65: calls made by a callback, and the same calls made right after -/

/-- C65: whatever the callbacks do, to any depth: the events are those of the reference machine. -/
theorem C65_exactly (g : Byte) (cb on : Bool) (cs : List Parser.Call) (hg : g < 16) (hv : ∀ o ∈ cs, ∀ k, SetsGroup o k → k < 16)
    (p : Parser) (es : List Event) (h : (Parser.new g cb on).performAll cs = .ok (p, es)) :
    ∃ c st, innerCalls ⟨g, cb, on⟩ (.plain .idle) cs = some (c, st, es) ∧ p.group = c.group ∧ p.invokeCallbacks = c.enabled := by
  obtain ⟨h1, h2⟩ := innerCalls_rel cs hv ⟨g, cb, on⟩ (.plain .idle) (Parser.new g cb on) (Or.inl (new_rel hg cb on))
  cases hm : innerCalls ⟨g, cb, on⟩ (.plain .idle) cs with
  | none =>
    have := h2 hm
    dsimp only at this
    rw [h] at this; cases this
  | some x =>
    obtain ⟨c, st, fs⟩ := x
    obtain ⟨-, q, ep, r⟩ := h1 c st fs hm
    dsimp only at ep
    rw [h] at ep
    obtain ⟨rfl, rfl⟩ := Prod.mk.inj (Except.ok.inj ep)
    exact ⟨c, st, rfl, r.forget.group, r.forget.on⟩

/-- C64: whatever the callbacks do, to any depth: if anything goes wrong it is the assertion for bytes behind the packet, and this
happens exactly if there is no result of the reference machine. -/
theorem C64_exactly (g : Byte) (cb on : Bool) (cs : List Parser.Call) (hg : g < 16) (hv : ∀ o ∈ cs, ∀ k, SetsGroup o k → k < 16)
    (f : Fault) : (Parser.new g cb on).performAll cs = .error f ↔
      f = .assertFailed ∧ innerCalls ⟨g, cb, on⟩ (.plain .idle) cs = none := by
  obtain ⟨h1, h2⟩ := innerCalls_rel cs hv ⟨g, cb, on⟩ (.plain .idle) (Parser.new g cb on) (Or.inl (new_rel hg cb on))
  dsimp only at h1 h2
  cases hm : innerCalls ⟨g, cb, on⟩ (.plain .idle) cs with
  | none =>
    rw [h2 hm]
    exact ⟨fun h => ⟨(Except.error.inj h).symm, rfl⟩, fun h => by rw [h.1]⟩
  | some x =>
    obtain ⟨c, st, fs⟩ := x
    obtain ⟨-, q, ep, -⟩ := h1 c st fs hm
    rw [ep]
    exact ⟨fun h => (by cases h), fun h => (by cases h.2)⟩

-- seven data bytes fed by the callback for a sysex packet, and F7: the packet is sent again, with thirteen bytes
example : innerCalls ⟨3, false, true⟩ (.plain .idle) (plainBytes [0xF0, 1, 2, 3, 4, 5] ++
      [.feed 6 (plainBytes [7, 8, 9, 10, 11, 12, 13, 0xF7])] ++ plainBytes [14, 0xF7]) =
    some (⟨3, false, true⟩, .plain .idle, [.packet (sysexPacket 3 1 [1, 2, 3, 4, 5, 6]),
      .packet (sysexPacket 3 0 [1, 2, 3, 4, 5, 6, 7, 8, 9, 10, 11, 12, 13]), .packet (sysexPacket 3 3 [14])]) := by decide +kernel

-- with nine data bytes there is no result
example : innerCalls ⟨3, false, true⟩ (.plain .idle) (plainBytes [0xF0, 1, 2, 3, 4, 5] ++
      [.feed 6 (plainBytes [7, 8, 9, 10, 11, 12, 13, 14, 15])]) = none := by decide +kernel

/-- C65: the reference machine says so for all calls, if there is a sysex callback, or if every callback begins with a status byte
other than sysex end or with a reset. -/
theorem C65_exactly_when (g : Byte) (cb on : Bool) (cs : List Parser.Call) (hg : g < 16) (hv : ∀ o ∈ cs, ∀ k, SetsGroup o k → k < 16)
    (hf : cb = true ∨ PoliteAll cs) : (innerCalls ⟨g, cb, on⟩ (.plain .idle) cs).isSome := by
  obtain ⟨c', st', es, e, -⟩ := innerCalls_good ((List.range 16).map (BitVec.ofNat 8)) cs (by
      intro o ho k hk
      have := hv o ho k hk
      clear * - this; revert this; revert k; decide +kernel) ⟨g, cb, on⟩ (.plain .idle) (by
      show g ∈ _
      clear * - hg; revert hg; revert g; decide +kernel) trivial (by
    rcases hf with hf | hf
    · exact Or.inl ⟨hf, _, rfl⟩
    · exact Or.inr ⟨hf, Or.inl ⟨_, rfl⟩⟩)
  rw [e]; rfl

/-- C65: in the callback for a real time message, the parser may be used in any way. The effect is that of the same calls right
after. -/
theorem C65_real_time_partial (p : Parser) (b : Byte) (hb : b ≥ 0xF8) (inside : List Parser.Call) :
    p.perform (.feed b inside) = do
      let (p1, es) ← p.feed b
      if es = [] then return (p1, es)
      else
        let (p2, fs) ← p1.performAll inside
        return (p2, es ++ fs) := by
  simp only [Parser.perform]
  unfold Parser.feedR Parser.feed
  rw [if_pos (show b ≥ SystemStatus.clock from hb), if_pos (show b ≥ SystemStatus.clock from hb)]
  unfold Parser.systemRealtimeR Parser.systemRealtime
  split
  · simp [ok_bind, pure_eq_ok]
  · cases hi : p.invokeCallbacks
    · rw [call_off hi, post_off hi]
      simp [ok_bind, pure_eq_ok]
    · rw [call_on hi, post_on hi, ok_bind]
      simp only [List.cons_ne_self, if_false, reduceCtorEq]
      rfl

example := C65_real_time_partial (Parser.new 1 false true) 0xF8 (by decide) [.setGroup 3, .feed 0x90 []]

mutual
theorem realTime_call : ∀ (o : Parser.Call), OnlyInRealTime o → ∀ p : Parser, p.perform o = p.after o
  | .feed b l, h, p => by
    cases h with
    | realTime b l hb hl =>
      rw [C65_real_time_partial p b hb l]
      simp only [Parser.after]
      cases p.feed b with
      | error f => rfl
      | ok v =>
        simp only [ok_bind]
        split
        · rfl
        · rw [realTime_calls l hl]
    | feed b =>
      simp only [Parser.perform, Parser.after, Parser.performAll, Parser.afterAll]
      rw [show (fun s : Parser => (Except.ok (s, []) : Except Fault (Parser × List Event))) = leave from rfl, feedR_leave]
      cases p.feed b with
      | error f => rfl
      | ok v =>
        simp only [ok_bind, pure_eq_ok, List.append_nil]
        split <;> rfl
  | .setGroup g, _, p => by simp only [Parser.perform, Parser.after]
  | .enable g, _, p => by simp only [Parser.perform, Parser.after]
  | .reset, _, p => by simp only [Parser.perform, Parser.after]

theorem realTime_calls : ∀ (l : List Parser.Call), (∀ o ∈ l, OnlyInRealTime o) → ∀ p : Parser, p.performAll l = p.afterAll l
  | [], _, p => by simp only [Parser.performAll, Parser.afterAll]
  | o :: l, h, p => by
    simp only [Parser.performAll, Parser.afterAll]
    rw [realTime_call o (h o (by simp))]
    cases p.after o with
    | error f => rfl
    | ok v => simp only [ok_bind, realTime_calls l (fun o ho => h o (by simp [ho]))]
end

/-- C65: if callbacks use the parser for real time messages only, at any depth, the effect is that of the same calls right after. -/
theorem C65_only_in_real_time_partial (cs : List Parser.Call) (h : ∀ o ∈ cs, OnlyInRealTime o) (p : Parser) :
    p.performAll cs = p.afterAll cs := realTime_calls cs h p

example := C65_only_in_real_time_partial [.feed 0xF0 [], .feed 0xF8 [.feed 0xFA [], .setGroup 2], .feed 0xF7 []]
  (by
    intro o ho
    simp only [List.mem_cons, List.not_mem_nil, or_false] at ho
    rcases ho with rfl | rfl | rfl
    · exact .feed _
    · refine .realTime _ _ (by decide) fun o ho => ?_
      simp only [List.mem_cons, List.not_mem_nil, or_false] at ho
      rcases ho with rfl | rfl
      · exact .feed _
      · exact .setGroup _
    · exact .feed _) (Parser.new 1 false true)

/-! ### Callbacks that change settings -/

/-- What a sequence of setters does. -/
def setAll (r : Bool) (g : Byte → Byte) (on : Bool → Bool) (p : Parser) : Parser :=
  { (if r then p.reset else p) with group := g p.group, invokeCallbacks := on p.invokeCallbacks }

theorem setters (l : List Parser.Call) (hl : ∀ o ∈ l, ∀ b k, o ≠ .feed b k) : ∃ r g on, ∀ p : Parser,
    p.performAll l = .ok (setAll r g on p, []) ∧ p.afterAll l = .ok (setAll r g on p, []) ∧
    ((∀ o ∈ l, ∃ x, o = .enable x) → r = false ∧ g = id) := by
  induction l with
  | nil =>
    refine ⟨false, id, id, fun p => ⟨?_, ?_, fun _ => ⟨rfl, rfl⟩⟩⟩
    · simp only [Parser.performAll]; rfl
    · simp only [Parser.afterAll]; rfl
  | cons o l ih =>
    obtain ⟨r, g, on, h⟩ := ih (fun o ho => hl o (by simp [ho]))
    cases o with
    | feed b k => exact absurd rfl (hl _ (by simp) b k)
    | setGroup k =>
      refine ⟨r, fun _ => g k, on, fun p => ⟨?_, ?_, fun hx => ?_⟩⟩
      · simp only [Parser.performAll, Parser.perform, ok_bind, (h _).1, pure_eq_ok]
        cases r <;> rfl
      · simp only [Parser.afterAll, Parser.after, ok_bind, (h _).2.1, pure_eq_ok]
        cases r <;> rfl
      · obtain ⟨x, hx⟩ := hx (.setGroup k) (by simp); cases hx
    | enable k =>
      refine ⟨r, g, fun _ => on k, fun p => ⟨?_, ?_, fun hx => (h p).2.2 fun o ho => hx o (by simp [ho])⟩⟩
      · simp only [Parser.performAll, Parser.perform, ok_bind, (h _).1, pure_eq_ok]
        cases r <;> rfl
      · simp only [Parser.afterAll, Parser.after, ok_bind, (h _).2.1, pure_eq_ok]
        cases r <;> rfl
    | reset =>
      refine ⟨true, g, on, fun p => ⟨?_, ?_, fun hx => ?_⟩⟩
      · simp only [Parser.performAll, Parser.perform, ok_bind, (h _).1, pure_eq_ok]
        cases r <;> rfl
      · simp only [Parser.afterAll, Parser.after, ok_bind, (h _).2.1, pure_eq_ok]
        cases r <;> rfl
      · obtain ⟨x, hx⟩ := hx .reset (by simp); cases hx

/-- Do `f` after a call that caused an event. -/
def deferred (f : Parser → Parser) (r : Except Fault (Parser × List Event)) : Except Fault (Parser × List Event) :=
  r.map fun x => if x.2 = [] then x else (f x.1, x.2)

theorem deferred_none (f : Parser → Parser) (p : Parser) : deferred f (.ok (p, [])) = .ok (p, []) := rfl
theorem deferred_one (f : Parser → Parser) (p : Parser) (e : Event) (es : List Event) :
    deferred f (.ok (p, e :: es)) = .ok (f p, e :: es) := rfl
theorem deferred_error (f : Parser → Parser) (x : Fault) : deferred f (.error x) = .error x := rfl

/-- A byte with a callback that changes settings. -/
theorem feedR_setters (p : Parser) (b : Byte) (r : Bool) (g : Byte → Byte) (on : Bool → Bool)
    (h : p.hasSysexCallback = true ∨ r = false ∧ g = id) :
    p.feedR b (fun s => .ok (setAll r g on s, [])) = deferred (setAll r g on) (p.feed b) := by
  have call : ∀ (s : Parser) (e : Event), s.call e (fun s => .ok (setAll r g on s, [])) =
      .ok (if s.invokeCallbacks = true then (setAll r g on s, [e]) else (s, [])) := by
    intro s e
    by_cases hi : s.invokeCallbacks = true
    · rw [call_on hi, if_pos hi]; rfl
    · rw [call_off (by simpa using hi), if_neg hi]
  have clearp : ∀ s : Parser, ({ setAll r g on s with packet := {} } : Parser) = setAll r g on { s with packet := {} } := by
    intro s; cases r <;> rfl
  have common : ∀ s : Parser, s.systemCommonR b (fun s => .ok (setAll r g on s, [])) =
      deferred (setAll r g on) (.ok (s.systemCommon b)) := by
    intro s
    unfold Parser.systemCommonR Parser.systemCommon
    dsimp only
    split
    · rfl
    · split
      · rfl
      · split
        · rw [call]
          by_cases hi : s.invokeCallbacks = true
          · rw [if_pos hi, ok_bind, post_on (s := { s with packet := makeSystem s.group b 0 0, packetByte := 2, missing := 0 }) hi,
              deferred_one]
            cases r <;> rfl
          · rw [if_neg hi, ok_bind, post_off (s := { s with packet := makeSystem s.group b 0 0, packetByte := 2, missing := 0 })
              (by simpa using hi)]; rfl
        · rfl
  have voice : ∀ s : Parser, s.channelVoiceR b (fun s => .ok (setAll r g on s, [])) =
      deferred (setAll r g on) (.ok (s.channelVoice b)) := by
    intro s
    unfold Parser.channelVoiceR Parser.channelVoice
    dsimp only
    split
    · rfl
    · split
      · rfl
      · rw [call]
        by_cases hi : s.invokeCallbacks = true
        · rw [if_pos hi, post_on (s := { s with packet := midi1Message s.group b 0 0, packetByte := 2, missing := 0 }) hi,
            deferred_one]
        · rw [if_neg hi, post_off (s := { s with packet := midi1Message s.group b 0 0, packetByte := 2, missing := 0 })
            (by simpa using hi)]; rfl
  have data : ∀ s : Parser, s.dataByteR b (fun s => .ok (setAll r g on s, [])) = deferred (setAll r g on) (s.dataByte b) := by
    intro s
    unfold Parser.dataByteR Parser.dataByte
    split
    · cases s.packet.setByte s.packetByte.toNat b with
      | error f => rfl
      | ok q =>
        simp only [ok_bind]
        split
        · have key : ∀ t : Parser, (t.call (.packet t.packet) (fun s => .ok (setAll r g on s, [])) >>= fun x =>
              (pure (if x.1.packet.status ≥ 0xF0 then { x.1 with packet := {} } else x.1, x.2) : Except Fault _)) =
              deferred (setAll r g on)
                (.ok (if t.packet.status ≥ 0xF0 then { t with packet := {} } else t, t.post t.packet)) := by
            intro t
            rw [call]
            by_cases hi : t.invokeCallbacks = true
            · rw [if_pos hi, post_on hi, deferred_one, ok_bind, pure_eq_ok]
              dsimp only
              congr 2
              cases r with
              | false =>
                have : (setAll false g on t).packet = t.packet := rfl
                rw [this]
                split
                · exact clearp t
                · rfl
              | true =>
                have : (setAll true g on t).packet = {} := rfl
                rw [this, if_neg (by decide)]
                split <;> rfl
            · rw [if_neg hi, post_off (by simpa using hi), deferred_none]; rfl
          exact key _
        · rfl
    · rfl
  have status : ∀ s : Parser, s.feedStatusR b (fun s => .ok (setAll r g on s, [])) =
      deferred (setAll r g on) (s.feedStatus b) := by
    intro s
    unfold Parser.feedStatusR Parser.feedStatus
    split
    · unfold Parser.sysexStart
      cases makeSysex7 .start s.group with
      | error f => rfl
      | ok q =>
        simp only [ok_bind]
        split <;> rfl
    · split
      · exact common s
      · split
        · exact voice s
        · exact data s
  unfold Parser.feedR Parser.feed
  split
  · unfold Parser.systemRealtimeR Parser.systemRealtime
    split
    · rfl
    · rw [call]
      by_cases hi : p.invokeCallbacks = true
      · rw [if_pos hi, post_on hi, deferred_one]
      · rw [if_neg hi, post_off (by simpa using hi), deferred_none]
  · split
    · split
      · split
        · rfl
        · next hcb =>
          obtain ⟨rfl, rfl⟩ := h.resolve_left hcb
          unfold Parser.sysexContinuePacketR Parser.sysexContinuePacket
          cases p.packet.setByte p.packetByte.toNat b with
          | error f => rfl
          | ok q =>
            simp only [ok_bind]
            split
            · by_cases hi : p.invokeCallbacks = true
              · simp only [if_pos hi]
                cases q.setByte 1 ((q.status &&& 0xF0) + 6) with
                | error f => rfl
                | ok q' =>
                  simp only [ok_bind, call, if_pos hi, pure_eq_ok]
                  show (makeSysex7 Format.cont p.group >>= _) = _
                  cases makeSysex7 Format.cont p.group <;> rfl
              · simp only [if_neg hi, pure_eq_ok, ok_bind]
                cases makeSysex7 Format.cont p.group <;> rfl
            · rfl
      · split
        · exact status _
        · split
          · unfold Parser.sysexEndCallbackR Parser.sysexEndCallback
            dsimp only
            split
            · rfl
            · rw [call]
              by_cases hi : p.invokeCallbacks = true
              · simp only [if_pos hi, ok_bind, deferred_one]
                cases r <;> rfl
              · simp only [if_neg hi, ok_bind, deferred_none]
                rfl
          · next hcb =>
            obtain ⟨rfl, rfl⟩ := h.resolve_left hcb
            unfold Parser.sysexEndPacketR Parser.sysexEndPacket
            dsimp only
            split
            · rfl
            · cases p.packet.setByte 1 ((if p.packet.status &&& 0xF0 = Format.start.status then Format.complete.status else
                Format.fin.status) + ((p.packetByte - 2) &&& 0x0F)) with
              | error f => rfl
              | ok q =>
                simp only [ok_bind, call]
                by_cases hi : p.invokeCallbacks = true
                · simp only [if_pos hi, post_on hi]; rfl
                · simp only [if_neg hi, post_off (show p.invokeCallbacks = false by simpa using hi)]; rfl
    · exact status p

theorem feed_mode (p p' : Parser) (b : Byte) (es : List Event) (h : p.feed b = .ok (p', es)) :
    p'.hasSysexCallback = p.hasSysexCallback := by
  have status : ∀ s : Parser, s.feedStatus b = .ok (p', es) → p'.hasSysexCallback = s.hasSysexCallback := by
    intro s
    unfold Parser.feedStatus Parser.sysexStart Parser.systemCommon Parser.channelVoice Parser.dataByte
    dsimp only
    intro h
    split at h
    · cases hm : makeSysex7 .start s.group with
      | error f => rw [hm] at h; cases h
      | ok q =>
        rw [hm] at h
        simp only [ok_bind] at h
        split at h <;> cases h <;> rfl
    · split at h
      · repeat' split at h
        all_goals cases h <;> rfl
      · split at h
        · repeat' split at h
          all_goals cases h <;> rfl
        · split at h
          · cases hm : s.packet.setByte s.packetByte.toNat b with
            | error f => rw [hm] at h; cases h
            | ok q =>
              rw [hm] at h
              simp only [ok_bind] at h
              repeat' split at h
              all_goals cases h <;> rfl
          · cases h; rfl
  unfold Parser.feed Parser.systemRealtime at h
  split at h
  · split at h <;> cases h <;> rfl
  · split at h
    · split at h
      · split at h
        · unfold Parser.sysexContinueCallback at h
          repeat' split at h
          all_goals cases h <;> rfl
        · unfold Parser.sysexContinuePacket at h
          cases hq : p.packet.setByte p.packetByte.toNat b with
          | error f => rw [hq] at h; cases h
          | ok q =>
            rw [hq] at h
            simp only [ok_bind] at h
            split at h
            · by_cases hi : p.invokeCallbacks = true
              · simp only [if_pos hi] at h
                cases hq' : q.setByte 1 ((q.status &&& 0xF0) + 6) with
                | error f => rw [hq'] at h; cases h
                | ok q' =>
                  rw [hq'] at h
                  simp only [ok_bind, pure_eq_ok] at h
                  cases hc : makeSysex7 Format.cont p.group with
                  | error f => rw [hc] at h; cases h
                  | ok c => rw [hc] at h; cases h; rfl
              · simp only [if_neg hi, pure_eq_ok, ok_bind] at h
                cases hc : makeSysex7 Format.cont p.group with
                | error f => rw [hc] at h; cases h
                | ok c => rw [hc] at h; cases h; rfl
            · cases h; rfl
      · split at h
        · exact (status _ h).trans rfl
        · split at h
          · unfold Parser.sysexEndCallback at h
            have h := Except.ok.inj h
            rw [show p' = _ from congrArg Prod.fst h.symm]
            dsimp only
            split <;> rfl
          · unfold Parser.sysexEndPacket at h
            dsimp only at h
            split at h
            · cases h; rfl
            · cases hq : p.packet.setByte 1 ((if p.packet.status &&& 0xF0 = Format.start.status then Format.complete.status else
                Format.fin.status) + ((p.packetByte - 2) &&& 0x0F)) with
              | error f => rw [hq] at h; cases h
              | ok q => rw [hq] at h; cases h; rfl
    · exact status p h

theorem settings_calls (cs : List Parser.Call) (h : ∀ o ∈ cs, NoFeeding o) : ∀ p : Parser,
    (p.hasSysexCallback = true ∨ ∀ o ∈ cs, OnlyEnables o) → p.performAll cs = p.afterAll cs := by
  induction cs with
  | nil => intro p _; simp only [Parser.performAll, Parser.afterAll]
  | cons o cs ih =>
    intro p hp
    have ih := ih (fun o ho => h o (by simp [ho]))
    have hcall : p.perform o = p.after o ∧ ∀ p' es, p.after o = .ok (p', es) → p'.hasSysexCallback = p.hasSysexCallback := by
      cases o with
      | setGroup g => simp only [Parser.perform, Parser.after]; exact ⟨trivial, by intro p' es e; cases e; rfl⟩
      | enable g => simp only [Parser.perform, Parser.after]; exact ⟨trivial, by intro p' es e; cases e; rfl⟩
      | reset => simp only [Parser.perform, Parser.after]; exact ⟨trivial, by intro p' es e; cases e; rfl⟩
      | feed b l =>
        obtain ⟨r, g, on, hs⟩ := setters l (h (.feed b l) (by simp))
        have hcase : p.hasSysexCallback = true ∨ r = false ∧ g = id := by
          rcases hp with hp | hp
          · exact Or.inl hp
          · exact Or.inr ((hs p).2.2 (hp (.feed b l) (by simp)))
        simp only [Parser.perform, Parser.after]
        rw [show (fun s : Parser => s.performAll l) = fun s => .ok (setAll r g on s, []) from funext fun s => (hs s).1,
          feedR_setters p b r g on hcase]
        cases hf : p.feed b with
        | error f => exact ⟨rfl, by intro p' es e; cases e⟩
        | ok v =>
          obtain ⟨p1, es⟩ := v
          have hm := feed_mode p p1 b es hf
          simp only [ok_bind]
          cases es with
          | nil =>
            rw [deferred_none, if_pos rfl]
            exact ⟨rfl, by intro p' es e; cases e; exact hm⟩
          | cons e es =>
            rw [deferred_one, if_neg (by simp), (hs p1).2.1]
            simp only [ok_bind, List.append_nil]
            refine ⟨rfl, ?_⟩
            intro p' es' e
            cases e
            refine Eq.trans ?_ hm
            cases r <;> rfl
    simp only [Parser.performAll, Parser.afterAll]
    rw [hcall.1]
    cases ha : p.after o with
    | error f => rfl
    | ok v =>
      simp only [ok_bind]
      rw [ih v.1]
      rcases hp with hp | hp
      · exact Or.inl ((hcall.2 v.1 v.2 ha).trans hp)
      · exact Or.inr fun o ho => hp o (by simp [ho])

/-- C65: with a sysex callback, callbacks may set the group, enable and disable callbacks and reset the parser. The effect is that
of the same calls right after. -/
theorem C65_settings_partial (cs : List Parser.Call) (h : ∀ o ∈ cs, NoFeeding o) (p : Parser) (hcb : p.hasSysexCallback = true) :
    p.performAll cs = p.afterAll cs := settings_calls cs h p (Or.inl hcb)

example := C65_settings_partial [.feed 0xF0 [], .feed 1 [], .feed 0xF7 [.setGroup 3, .reset]] (by simp [NoFeeding]) (Parser.new 1 true true) rfl

/-- C65: with or without sysex callback, callbacks may enable and disable callbacks. -/
theorem C65_enable_partial (cs : List Parser.Call) (h : ∀ o ∈ cs, OnlyEnables o) (p : Parser) :
    p.performAll cs = p.afterAll cs := by
  refine settings_calls cs ?_ p (Or.inr h)
  intro o ho
  have := h o ho
  cases o with
  | feed b l =>
    intro x hx b' l' he
    obtain ⟨on, hon⟩ := this x hx
    rw [hon] at he; cases he
  | _ => trivial

example := C65_enable_partial [.feed 0xF0 [], .feed 1 [], .feed 0xF7 [.enable false, .enable true]] (by simp [OnlyEnables]) (Parser.new 1 false true)

end Midi
