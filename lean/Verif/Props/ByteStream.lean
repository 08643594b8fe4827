import Verif.Lemmas.StreamInv

/-!
# C25 – C28, C31, C32: the MIDI 1 byte stream parser
-/

namespace Midi
open Spec

/-! ## Reachable parsers and the grammar -/

theorem ParserRel.settings {c : Settings} {st : StreamState} {p : Parser} (h : ParserRel c st p) :
    c = ⟨p.group, p.hasSysexCallback, p.invokeCallbacks⟩ := by
  rw [h.group, h.cb, h.on]

theorem reached_rel {p : Parser} (h : Reached p) : ∃ st,
    ParserRel ⟨p.group, p.hasSysexCallback, p.invokeCallbacks⟩ st p ∧ groupOk st := by
  obtain ⟨g, cb, on, ops, es, hg, hv, e⟩ := h
  obtain ⟨p', e', r⟩ := run_rel ops (new_rel hg cb on) hv
  rw [e'] at e
  simp only [Except.ok.injEq, Prod.mk.injEq] at e
  obtain ⟨rfl, _⟩ := e
  refine ⟨_, by rw [← r.settings]; exact r, ?_⟩
  have hlt : ∀ x ∈ groupsIn g ops, x < 16 := by
    intro x hx
    simp only [groupsIn, List.mem_cons, List.mem_filterMap] at hx
    rcases hx with rfl | ⟨o, ho, hx⟩
    · exact hg
    · cases o with
      | setGroup k => simp only [Option.some.injEq] at hx; subst hx; exact hv _ ho
      | _ => simp at hx
  refine groupOk_of_good hlt (run_good (groupsIn g ops) ops ⟨g, cb, on⟩ .idle (by simp [groupsIn]) ?_ trivial).1
  intro k hk
  simp only [groupsIn, List.mem_cons, List.mem_filterMap]
  exact Or.inr ⟨_, hk, rfl⟩

theorem alike_of_rel {c : Settings} {st : StreamState} {p q : Parser} (hp : ParserRel c st p) (hq : ParserRel c st q) :
    Alike p q := by
  intro ops hv
  obtain ⟨p', e, _⟩ := run_rel ops hp hv
  obtain ⟨q', e', _⟩ := run_rel ops hq hv
  exact ⟨p', q', _, e, e'⟩

theorem run_append (a b : List Parser.Op) : ∀ {p p' : Parser} {es : List Event}, p.run a = .ok (p', es) →
    p.run (a ++ b) = (p'.run b).map fun r => (r.1, es ++ r.2) := by
  induction a with
  | nil =>
    intro p p' es h
    simp only [Parser.run, Except.ok.injEq, Prod.mk.injEq] at h
    obtain ⟨rfl, rfl⟩ := h
    show p.run b = _
    cases hb : p.run b <;> rfl
  | cons o a ih =>
    intro p p' es h
    rw [Parser.run] at h
    rw [List.cons_append, Parser.run]
    cases ho : p.op o with
    | error f => rw [ho] at h; simp at h
    | ok r =>
      obtain ⟨p1, e1⟩ := r
      rw [ho, ok_bind] at h
      dsimp only at h
      cases ha : p1.run a with
      | error f => rw [ha] at h; simp at h
      | ok r =>
        obtain ⟨p2, e2⟩ := r
        rw [ha, ok_bind] at h
        simp only [pure_eq_ok, Except.ok.injEq, Prod.mk.injEq] at h
        obtain ⟨rfl, rfl⟩ := h
        rw [ok_bind]
        dsimp only
        rw [ih ha]
        cases hb : p2.run b with
        | error f => rfl
        | ok r =>
          show Except.ok (r.1, e1 ++ (e2 ++ r.2)) = Except.ok (r.1, e1 ++ e2 ++ r.2)
          rw [List.append_assoc]

theorem run_feed (p : Parser) (bs : List Byte) : p.run [.feed bs] = p.feedAll bs := by
  rw [Parser.run, Parser.op]
  cases p.feedAll bs with
  | error f => rfl
  | ok r => simp [Parser.run]

/-- What a reachable parser became by further operations is reachable. -/
theorem Spec.Reached.run {p p' : Parser} (h : Reached p) {ops : List Parser.Op} (hv : ValidGroups ops) {es : List Event}
    (e : p.run ops = .ok (p', es)) : Reached p' := by
  obtain ⟨g, cb, on, ops', es', hg, hv', e'⟩ := h
  refine ⟨g, cb, on, ops' ++ ops, es' ++ es, hg, ?_, ?_⟩
  · intro k hk
    rcases List.mem_append.1 hk with hk | hk
    · exact hv' k hk
    · exact hv k hk
  · rw [run_append _ _ e', e]; rfl

theorem Spec.Reached.feedAll {p p' : Parser} (h : Reached p) {bs : List Byte} {es : List Event}
    (e : p.feedAll bs = .ok (p', es)) : Reached p' :=
  h.run (ops := [.feed bs]) (by intro g hg; simp at hg) (by rw [run_feed]; exact e)

theorem reached_new {g : Byte} (hg : g < 16) (cb on : Bool) : Reached (Parser.new g cb on) :=
  ⟨g, cb, on, [], [], hg, by simp [ValidGroups], rfl⟩

/-- Every parser handling sysex bytes with an active message is reachable, for example. -/
example : Reached { group := 3, packet := ⟨0x33100102, 0, 0, 0⟩, packetByte := 4 } :=
  ⟨3, false, true, [.feed [0xF0, 1, 2]], [], by decide, by simp [ValidGroups], by decide⟩

/-! ## C25 -/

/-- C25: whatever bytes are fed into a parser, in whatever sequence of operations (with groups below 16), it never
performs an out of range access nor fails an assertion, and it emits only well formed packets of the MIDI 1 protocol in the
groups that were set. Sysex messages are delivered in callback mode only and contain 7 bit data only; sysex packets are
emitted in packet mode only. -/
theorem C25_parser_output (g : Byte) (cb on : Bool) (ops : List Parser.Op) (hg : g < 16) (hv : ValidGroups ops) :
    ∃ p es, (Parser.new g cb on).run ops = .ok (p, es) ∧
      (∀ q, .packet q ∈ es → WellFormed1 (groupsIn g ops) q ∧ (cb = true → ¬ IsSysex7 q)) ∧
      (∀ s, .sysex s ∈ es → cb = true ∧ Is7Bit s) := by
  obtain ⟨p', e, _⟩ := run_rel ops (new_rel hg cb on) hv
  have hlt : ∀ x ∈ groupsIn g ops, x < 16 := by
    intro x hx
    simp only [groupsIn, List.mem_cons, List.mem_filterMap] at hx
    rcases hx with rfl | ⟨o, ho, hx⟩
    · exact hg
    · cases o with
      | setGroup k => simp only [Option.some.injEq] at hx; subst hx; exact hv _ ho
      | _ => simp at hx
  have good := (run_good (groupsIn g ops) ops ⟨g, cb, on⟩ .idle (by simp [groupsIn]) (by
    intro k hk
    simp only [groupsIn, List.mem_cons, List.mem_filterMap]
    exact Or.inr ⟨_, hk, rfl⟩) trivial).2
  refine ⟨p', _, e, ?_, ?_⟩
  · intro q hq
    have h := good _ hq
    generalize hev : Event.packet q = ev at h
    cases h with
    | short g' s d hg' hs hl hd =>
      simp only [Event.packet.injEq] at hev; subst hev
      refine ⟨wellFormed_short _ hg' (hlt _ hg') hs hl hd, fun _ h7 => ?_⟩
      have := h7.1
      rw [byteAt_short_0, shortHead_type (hlt _ hg')] at this
      split at this <;> omega
    | data g' f d hg' hl hd hc =>
      simp only [Event.packet.injEq] at hev; subst hev
      exact ⟨wellFormed_sysex _ f hg' (hlt _ hg') hl hd, fun h => absurd (h.symm.trans hc) (by simp)⟩
    | sysex d hd hc => simp at hev
  · intro s hs
    have h := good _ hs
    generalize hev : Event.sysex s = ev at h
    cases h with
    | sysex d hd hc => simp only [Event.sysex.injEq] at hev; subst hev; exact ⟨hc, is7Bit_message7 hd⟩
    | _ => simp at hev

/-- C25: a parser in a group above 15 fails an assertion as soon as sysex starts. -/
theorem C25_bad_group (g : Byte) (cb on : Bool) (hg : ¬ g < 16) :
    (Parser.new g cb on).feed 0xF0 = .error .assertFailed := by
  have : (Parser.new g cb on).feed 0xF0 = (Parser.new g cb on).sysexStart := by
    unfold Parser.feed Parser.feedStatus
    rw [if_neg (by decide), if_neg (show ¬ (Parser.new g cb on).packet.type = PacketType.data from (by decide : ¬ ({} : Packet).type = PacketType.data)), if_pos rfl]
  rw [this]
  unfold Parser.sysexStart
  rw [show (Parser.new g cb on).group = g from rfl, makeSysex7_fail _ hg]; rfl

/-- C25: data bytes without status, an undefined status, a real time byte within a note on message, a note off message in
running status, sysex interrupted by a message in another group. -/
example : ∃ p, (Parser.new 2 false true).run [.feed [0x11, 0xF4, 0x12, 0x91, 0x40, 0xF8, 0x7F, 0x40, 0x00, 0xF0, 1, 2, 3],
      .setGroup 5, .feed [4, 5, 6, 7, 0xC0, 0x33]] = .ok (p,
    [.packet ⟨0x12F80000, 0, 0, 0⟩, .packet ⟨0x2291407F, 0, 0, 0⟩, .packet ⟨0x22914000, 0, 0, 0⟩,
      .packet ⟨0x32160102, 0x03040506, 0, 0⟩, .packet ⟨0x25C03300, 0, 0, 0⟩]) := ⟨_, rfl⟩

/-! ## C26 -/

/-- C26: the events emitted by a parser for any sequence of operations are those of the reference grammar. -/
theorem C26_parser_grammar (g : Byte) (cb on : Bool) (ops : List Parser.Op) (hg : g < 16) (hv : ValidGroups ops) :
    ∃ p, (Parser.new g cb on).run ops = .ok (p, opEvents ⟨g, cb, on⟩ .idle ops) := by
  obtain ⟨p', e, _⟩ := run_rel ops (new_rel hg cb on) hv
  exact ⟨p', e⟩

/-- C26, for a plain byte sequence. -/
theorem C26_parser_bytes (g : Byte) (cb : Bool) (bs : List Byte) (hg : g < 16) :
    ∃ p, (Parser.new g cb true).feedAll bs = .ok (p, (stepBytes ⟨g, cb, true⟩ .idle bs).2) := by
  obtain ⟨p', e, _⟩ := feedAll_rel bs (new_rel hg cb true)
  exact ⟨p', e⟩

/-- C26: what the grammar says about a song position message interrupted by a tune request, and about sysex. -/
example : (stepBytes ⟨0, true, true⟩ .idle [0xF2, 0x01, 0xF6, 0x02, 0xF0, 0x00, 0x20, 0x0D, 0x55, 0xFE, 0x56, 0xF7]).2 =
    [.packet ⟨0x10F60000, 0, 0, 0⟩, .packet ⟨0x10FE0000, 0, 0, 0⟩, .sysex ⟨0x00200D, [0x55, 0x56]⟩] := by decide

/-! ## C27 -/

theorem feed_realtime (p : Parser) {b : Byte} (h : b ≥ 0xF8) : p.feed b = .ok (p, if p.invokeCallbacks then
    if b = 0xF9 ∨ b = 0xFD then [] else [.packet (makeSystem p.group b 0 0)] else []) := by
  unfold Parser.feed
  rw [if_pos (show b ≥ SystemStatus.clock from h)]
  unfold Parser.systemRealtime Parser.post
  split <;> simp

theorem feedAll_filter (bs : List Byte) : ∀ {p p' : Parser} {es : List Event}, p.feedAll bs = .ok (p', es) →
    ∃ es', p.feedAll (bs.filter fun b => decide (b < 0xF8)) = .ok (p', es') := by
  induction bs with
  | nil => intro p p' es h; exact ⟨es, h⟩
  | cons b bs ih =>
    intro p p' es h
    rw [Parser.feedAll] at h
    by_cases hb : b < 0xF8
    · rw [List.filter_cons_of_pos (by simpa using hb), Parser.feedAll]
      cases hf : p.feed b with
      | error f => rw [hf] at h; simp at h
      | ok r =>
        obtain ⟨p1, e1⟩ := r
        rw [hf, ok_bind] at h
        dsimp only at h
        cases ha : p1.feedAll bs with
        | error f => rw [ha] at h; simp at h
        | ok r =>
          obtain ⟨p2, e2⟩ := r
          rw [ha, ok_bind] at h
          simp only [pure_eq_ok, Except.ok.injEq, Prod.mk.injEq] at h
          obtain ⟨rfl, rfl⟩ := h
          obtain ⟨es', e'⟩ := ih ha
          rw [ok_bind]
          dsimp only
          rw [e', ok_bind]
          exact ⟨_, rfl⟩
    · rw [List.filter_cons_of_neg (by simpa using hb)]
      rw [feed_realtime p (BitVec.not_lt.1 hb), ok_bind] at h
      dsimp only at h
      cases ha : p.feedAll bs with
      | error f => rw [ha] at h; simp at h
      | ok r =>
        obtain ⟨p2, e2⟩ := r
        rw [ha, ok_bind] at h
        simp only [pure_eq_ok, Except.ok.injEq, Prod.mk.injEq] at h
        obtain ⟨rfl, _⟩ := h
        exact ih ha

/-- C27: compared to the same bytes without real time bytes, from any state of the parser: the parser ends up in the very
same state; without the real time packets the events are the same, in the same order; and the real time packets are exactly
one for each (defined) real time byte. -/
theorem C27_realtime_transparent (p : Parser) (hp : Reached p) (bs : List Byte) :
    ∃ p' es, p.feedAll bs = .ok (p', es) ∧
      p.feedAll (bs.filter fun b => decide (b < 0xF8)) = .ok (p', es.filter fun e => !isRealTime e) ∧
      es.filter isRealTime = if p.invokeCallbacks then
        (bs.filter fun b => decide (b ≥ 0xF8 ∧ b ≠ 0xF9 ∧ b ≠ 0xFD)).map fun b => .packet (shortMessage p.group b [])
        else [] := by
  obtain ⟨st, r, hg⟩ := reached_rel hp
  obtain ⟨p', e, r'⟩ := feedAll_rel bs r
  obtain ⟨p'', e'', _⟩ := feedAll_rel (bs.filter fun b => decide (b < 0xF8)) r
  obtain ⟨es', h'⟩ := feedAll_filter bs e
  obtain ⟨_, h2, h3⟩ := stepBytes_rt _ (by exact r.lt) bs st hg
  refine ⟨p', _, e, ?_, h3⟩
  rw [e''] at h'
  simp only [Except.ok.injEq, Prod.mk.injEq] at h'
  rw [e'', h'.1, ← h2]

/-- C27: a real time byte inserted anywhere changes nothing but adds its packet between the events of the bytes before
and behind. -/
theorem C27_realtime_inserted (p : Parser) (hp : Reached p) (a c : List Byte) (b : Byte) (hb : b ≥ 0xF8)
    (hd : b ≠ 0xF9 ∧ b ≠ 0xFD) (hon : p.invokeCallbacks = true) :
    ∃ p' p'' ea ec, p.feedAll a = .ok (p', ea) ∧ p.feedAll (a ++ c) = .ok (p'', ea ++ ec) ∧
      p.feedAll (a ++ b :: c) = .ok (p'', ea ++ .packet (shortMessage p.group b []) :: ec) := by
  obtain ⟨st, r, hg⟩ := reached_rel hp
  obtain ⟨p', e, r'⟩ := feedAll_rel a r
  obtain ⟨p1, e1, _⟩ := feedAll_rel (a ++ c) r
  obtain ⟨p2, e2, _⟩ := feedAll_rel (a ++ b :: c) r
  have hp12 : p1 = p2 := by
    obtain ⟨x, hx⟩ := feedAll_filter _ e1
    obtain ⟨y, hy⟩ := feedAll_filter _ e2
    have : (a ++ b :: c).filter (fun b => decide (b < 0xF8)) = (a ++ c).filter (fun b => decide (b < 0xF8)) := by
      rw [List.filter_append, List.filter_append, List.filter_cons_of_neg (by simpa using hb)]
    rw [this, hx] at hy
    simp only [Except.ok.injEq, Prod.mk.injEq] at hy
    exact hy.1
  subst hp12
  refine ⟨p', p1, _, (stepBytes ⟨p.group, p.hasSysexCallback, p.invokeCallbacks⟩
    (stepBytes ⟨p.group, p.hasSysexCallback, p.invokeCallbacks⟩ st a).1 c).2, e, by rw [e1, stepBytes_append], ?_⟩
  rw [e2, stepBytes_append, stepBytes_cons, step_rt _ _ hb, if_neg (show ¬ (b = 0xF9 ∨ b = 0xFD) by simp only [not_or]; exact hd)]
  simp [hon]

/-- C27: two real time bytes within sysex and a note on message. -/
example : ∃ p, (Parser.new 0 true true).feedAll [0xF0, 0x7E, 0xFA, 1, 0xF7, 0x90, 0xF8, 2, 3] = .ok (p,
    [.packet ⟨0x10FA0000, 0, 0, 0⟩, .sysex ⟨0x7E0000, [1]⟩, .packet ⟨0x10F80000, 0, 0, 0⟩, .packet ⟨0x20900203, 0, 0, 0⟩]) ∧
    (Parser.new 0 true true).feedAll [0xF0, 0x7E, 1, 0xF7, 0x90, 2, 3] = .ok (p,
      [.sysex ⟨0x7E0000, [1]⟩, .packet ⟨0x20900203, 0, 0, 0⟩]) := ⟨_, rfl, rfl⟩

/-! ## C28 -/

theorem stepBytes_running (c : Settings) (g s : Byte) (hs : s < 0xF0) (hn : dataBytes s ≠ 0) (n : Nat) :
    ∀ d : List Byte, d.length = n → n % dataBytes s = 0 → (∀ b ∈ d, b < 0x80) →
    (stepBytes c (.message g s []) d).1 = .message g s [] := by
  induction n using Nat.strongRecOn with
  | ind n ih =>
    intro d hl hm hd
    by_cases h0 : d = []
    · subst h0; rfl
    · have hlen : 0 < d.length := List.length_pos_iff.2 h0
      have hge : dataBytes s ≤ n := by
        rcases Nat.lt_or_ge n (dataBytes s) with h | h
        · rw [Nat.mod_eq_of_lt h] at hm; omega
        · exact h
      rw [← List.take_append_drop (dataBytes s) d, stepBytes_append]
      have ht : (d.take (dataBytes s)).length = dataBytes s := by simp; omega
      rw [stepBytes_data c g s (d.take (dataBytes s)) [] (fun b hb => hd b (List.mem_of_mem_take hb))
        (by intro h; rw [h] at ht; simp at ht; omega) (by simpa using ht), if_pos hs]
      refine ih (n - dataBytes s) (by omega) _ (by simp; omega) ?_ (fun b hb => hd b (List.mem_of_mem_drop hb))
      rw [← Nat.mod_eq_sub_mod hge]; exact hm

/-- The status bytes of channel voice messages. -/
theorem cv_facts {s : Byte} (h : 0x80 ≤ s ∧ s < 0xF0) : ¬ s ≥ 0xF8 ∧ dataBytes s ≠ 0 := by
  obtain ⟨h1, h2⟩ := h; revert h1 h2; revert s; decide +kernel

/-- The repeated status byte has no effect. -/
theorem step_repeated (c : Settings) (st : StreamState) (hc : c.group < 16) (hst : groupOk st) {s : Byte}
    (hs : 0x80 ≤ s ∧ s < 0xF0) (d : List Byte)
    (hd : ∀ b ∈ d, b < 0x80 ∨ b ≥ 0xF8) (hl : (d.filter fun b => decide (b < 0xF8)).length % dataBytes s = 0) :
    (stepBytes c st (s :: d)).1 = .message c.group s [] ∧ stepByte c (.message c.group s []) s = (.message c.group s [], []) := by
  obtain ⟨h1, h2⟩ := cv_facts hs
  refine ⟨?_, step_new c _ h1 h2⟩
  rw [stepBytes_cons, step_new c st h1 h2]
  rw [(stepBytes_rt c hc d (.message c.group s []) ⟨hc, h1⟩).1]
  refine stepBytes_running c _ s hs.2 h2 _ _ rfl hl ?_
  intro b hb
  rw [List.mem_filter] at hb
  rcases hd b hb.1 with h | h
  · exact h
  · exact absurd h (BitVec.not_le.2 (by simpa using hb.2))

/-- C28: from any state of the parser, after a channel voice status byte and any number of complete messages in running
status, possibly with real time bytes in between, repeating the status byte makes no difference: the events of everything
fed are the same with and without it, and so are those of all later operations. -/
theorem C28_running_status (p : Parser) (hp : Reached p) (s : Byte) (hs : 0x80 ≤ s ∧ s < 0xF0) (d rest : List Byte)
    (hd : ∀ b ∈ d, b < 0x80 ∨ b ≥ 0xF8) (hl : (d.filter fun b => decide (b < 0xF8)).length % dataBytes s = 0) :
    ∃ p1 p2 es, p.feedAll (s :: d ++ s :: rest) = .ok (p1, es) ∧ p.feedAll (s :: d ++ rest) = .ok (p2, es) ∧
      Alike p1 p2 := by
  obtain ⟨st, r, hg⟩ := reached_rel hp
  obtain ⟨p1, e1, r1⟩ := feedAll_rel (s :: d ++ s :: rest) r
  obtain ⟨p2, e2, r2⟩ := feedAll_rel (s :: d ++ rest) r
  obtain ⟨k1, k2⟩ := step_repeated _ st (by exact r.lt) hg hs d hd hl
  have key : stepBytes ⟨p.group, p.hasSysexCallback, p.invokeCallbacks⟩ st (s :: d ++ s :: rest) =
      stepBytes ⟨p.group, p.hasSysexCallback, p.invokeCallbacks⟩ st (s :: d ++ rest) := by
    rw [stepBytes_append, stepBytes_append, k1, stepBytes_cons, k2]; rfl
  rw [key] at e1 r1
  exact ⟨p1, p2, _, e1, e2, alike_of_rel r1 r2⟩

/-- C28: any number of channel voice messages with the same status byte, with the status byte given once or each time,
give one packet each. -/
theorem C28_messages (p : Parser) (hp : Reached p) (hon : p.invokeCallbacks = true) (s : Byte) (hs : 0x80 ≤ s ∧ s < 0xF0)
    (ms : List (List Byte)) (hms : ∀ m ∈ ms, m.length = dataBytes s ∧ ∀ b ∈ m, b < 0x80) :
    ∃ p1 p2, p.feedAll (s :: ms.flatten) = .ok (p1, ms.map fun m => .packet (shortMessage p.group s m)) ∧
      p.feedAll (ms.flatMap (s :: ·)) = .ok (p2, ms.map fun m => .packet (shortMessage p.group s m)) := by
  obtain ⟨st, r, hg⟩ := reached_rel hp
  obtain ⟨p1, e1, r1⟩ := feedAll_rel (s :: ms.flatten) r
  obtain ⟨p2, e2, r2⟩ := feedAll_rel (ms.flatMap (s :: ·)) r
  obtain ⟨h1, h2⟩ := cv_facts hs
  have a1 : ∀ ms : List (List Byte), (∀ m ∈ ms, m.length = dataBytes s ∧ ∀ b ∈ m, b < 0x80) →
      (stepBytes ⟨p.group, p.hasSysexCallback, p.invokeCallbacks⟩ (.message p.group s []) ms.flatten).2 =
        ms.map fun m => .packet (shortMessage p.group s m) := by
    intro ms
    induction ms with
    | nil => intro _; rfl
    | cons m ms ih =>
      intro h
      obtain ⟨hl, hb⟩ := h m (by simp)
      rw [List.flatten_cons, stepBytes_append,
        stepBytes_data _ _ _ m [] hb (by rintro rfl; simp at hl; omega) (by simpa using hl), if_pos hs.2,
        ih (fun m hm => h m (by simp [hm]))]
      simp [hon]
  have a2 : ∀ (ms : List (List Byte)) (st : StreamState), (∀ m ∈ ms, m.length = dataBytes s ∧ ∀ b ∈ m, b < 0x80) →
      (stepBytes ⟨p.group, p.hasSysexCallback, p.invokeCallbacks⟩ st (ms.flatMap (s :: ·))).2 =
        ms.map fun m => .packet (shortMessage p.group s m) := by
    intro ms
    induction ms with
    | nil => intro _ _; rfl
    | cons m ms ih =>
      intro st h
      obtain ⟨hl, hb⟩ := h m (by simp)
      rw [List.flatMap_cons, stepBytes_append, stepBytes_message _ st s m h1 h2 hb hl, ih _ (fun m hm => h m (by simp [hm]))]
      simp [hon]
  refine ⟨p1, p2, ?_, ?_⟩
  · rw [e1, stepBytes_cons, step_new _ st h1 h2, a1 ms hms]; rfl
  · rw [e2, a2 ms st hms]

/-- C28: three control changes, the status byte once or repeated. -/
example : ∃ p q, (Parser.new 1 false true).feedAll [0xB3, 7, 1, 7, 0xFE, 2, 7, 3] = .ok (p,
    [.packet ⟨0x21B30701, 0, 0, 0⟩, .packet ⟨0x11FE0000, 0, 0, 0⟩, .packet ⟨0x21B30702, 0, 0, 0⟩, .packet ⟨0x21B30703, 0, 0, 0⟩]) ∧
    (Parser.new 1 false true).feedAll [0xB3, 7, 1, 0xB3, 7, 0xFE, 2, 0xB3, 7, 3] = .ok (q,
    [.packet ⟨0x21B30701, 0, 0, 0⟩, .packet ⟨0x11FE0000, 0, 0, 0⟩, .packet ⟨0x21B30702, 0, 0, 0⟩, .packet ⟨0x21B30703, 0, 0, 0⟩]) :=
  ⟨_, _, rfl, rfl⟩

/-! ## C31 -/

theorem feedAll_append (a b : List Byte) : ∀ p : Parser, p.feedAll (a ++ b) =
    (p.feedAll a).bind fun r => (r.1.feedAll b).map fun q => (q.1, r.2 ++ q.2) := by
  induction a with
  | nil =>
    intro p
    show p.feedAll b = (p.feedAll b).map _
    cases p.feedAll b <;> rfl
  | cons x a ih =>
    intro p
    rw [List.cons_append, Parser.feedAll, Parser.feedAll]
    cases p.feed x with
    | error f => rfl
    | ok r =>
      obtain ⟨p1, e1⟩ := r
      rw [ok_bind, ok_bind]
      dsimp only
      rw [ih]
      cases p1.feedAll a with
      | error f => rfl
      | ok r =>
        obtain ⟨p2, e2⟩ := r
        show (Except.bind (Except.map _ (p2.feedAll b)) _ : Except Fault _) = _
        cases hb : p2.feedAll b with
        | error f => simp [hb, Except.bind, Except.map]
        | ok r => simp [hb, Except.bind, Except.map, pure_eq_ok]

/-- C31: feeding bytes in blocks, however they are divided, has the same outcome as feeding them all at once; this holds
for any parser, reachable or not, including failed assertions. -/
theorem C31_chunking (blocks : List (List Byte)) : ∀ p : Parser, p.run (blocks.map .feed) = p.feedAll blocks.flatten := by
  induction blocks with
  | nil => intro p; rfl
  | cons b blocks ih =>
    intro p
    rw [List.map_cons, Parser.run, Parser.op, List.flatten_cons, feedAll_append]
    cases p.feedAll b with
    | error f => rfl
    | ok r =>
      obtain ⟨p1, e1⟩ := r
      rw [ok_bind]
      dsimp only
      rw [ih]
      show _ = (p1.feedAll blocks.flatten).map _
      cases p1.feedAll blocks.flatten <;> rfl

/-- C31: in particular two ways to divide the same bytes into blocks are the same, such as feeding them byte by byte. -/
theorem C31_same_bytes (p : Parser) (xs ys : List (List Byte)) (h : xs.flatten = ys.flatten) :
    p.run (xs.map .feed) = p.run (ys.map .feed) := by
  rw [C31_chunking, C31_chunking, h]

/-- C31: after `reset()` a parser behaves like a new one with the same group, callbacks and enabling, whatever was done
before. -/
theorem C31_reset (p : Parser) (hp : Reached p) :
    Alike p.reset (Parser.new p.group p.hasSysexCallback p.invokeCallbacks) := by
  obtain ⟨st, r, hg⟩ := reached_rel hp
  exact alike_of_rel (c := ⟨p.group, p.hasSysexCallback, p.invokeCallbacks⟩) (st := .idle)
    ⟨rfl, rfl, rfl, r.lt, rfl⟩ (new_rel r.lt _ _)

/-- C31: a reset in the middle of sysex and of a message in running status. -/
example : ∃ p q, (Parser.new 0 true true).run [.feed [0xF0, 0x7E, 1], .reset, .feed [2, 0xF7, 0x90, 1], .feed [2, 3], .reset,
    .feed [4, 0x80, 5, 6]] = .ok (p, [.packet ⟨0x20900102, 0, 0, 0⟩, .packet ⟨0x20800506, 0, 0, 0⟩]) ∧
    (Parser.new 0 true true).run [.feed [4, 0x80, 5, 6]] = .ok (q, [.packet ⟨0x20800506, 0, 0, 0⟩]) := ⟨_, _, rfl, rfl⟩

/-! ## C32 -/

theorem stepBytes_disabled (c : Settings) (h : c.enabled = false) (bs : List Byte) : ∀ st, (stepBytes c st bs).2 = [] := by
  induction bs with
  | nil => intro st; rfl
  | cons b bs ih => intro st; rw [stepBytes_cons, ih]; simp [stepByte, h]

theorem opEvents_disabled (ops : List Parser.Op) : ∀ (c : Settings) (st : StreamState), c.enabled = false →
    Parser.Op.enable true ∉ ops → opEvents c st ops = [] := by
  induction ops with
  | nil => intro c st _ _; rfl
  | cons o ops ih =>
    intro c st hc ho
    have : (stepOp c st o).1.enabled = false ∧ (stepOp c st o).2.2 = [] := by
      cases o with
      | feed bs => exact ⟨hc, stepBytes_disabled c hc bs st⟩
      | setGroup g => exact ⟨hc, rfl⟩
      | reset => exact ⟨hc, rfl⟩
      | enable on =>
        refine ⟨?_, rfl⟩
        cases on with
        | false => rfl
        | true => simp at ho
    show (stepOp c st o).2.2 ++ opEvents _ _ ops = []
    rw [this.2, ih _ _ this.1 (fun h => ho (by simp [h]))]; rfl

/-- C32: while callbacks are disabled, no callback is invoked, whatever is fed or done otherwise. -/
theorem C32_disabled_silent (p : Parser) (hp : Reached p) (hoff : p.invokeCallbacks = false) (ops : List Parser.Op)
    (hv : ValidGroups ops) (ho : .enable true ∉ ops) : ∃ p', p.run ops = .ok (p', []) := by
  obtain ⟨st, r, hg⟩ := reached_rel hp
  obtain ⟨p', e, _⟩ := run_rel ops r hv
  rw [opEvents_disabled ops _ st hoff ho] at e
  exact ⟨p', e⟩

example := C32_disabled_silent (Parser.new 3 true false) (reached_new (by decide) _ _) rfl
  [.feed [0x90, 60, 100, 0xF0, 0x7E], .setGroup 5, .feed [1, 0xF7], .reset] (by intro g hg; simp at hg; subst hg; decide) (by simp)

/-- States that differ only in whether callbacks were enabled when sysex started. -/
def sameParse : StreamState → StreamState → Prop
  | .idle, .idle => True
  | .message g s d, .message g' s' d' => g = g' ∧ s = s' ∧ d = d'
  | .sysex g _ d, .sysex g' _ d' => g = g' ∧ d = d'
  | _, _ => False

theorem sameParse_refl (st : StreamState) : sameParse st st := by
  cases st <;> simp [sameParse]

theorem byteEvents_same {c c' : Settings} (hg : c.group = c'.group) (hcb : c.sysexCallback = c'.sysexCallback)
    {st st' : StreamState} (h : sameParse st st') (b : Byte) : sameParse (byteEvents c st b).1 (byteEvents c' st' b).1 ∧
    (c.sysexCallback = false → (byteEvents c st b).2 = (byteEvents c' st' b).2) := by
  obtain ⟨g, cb, on⟩ := c
  obtain ⟨g', cb', on'⟩ := c'
  dsimp only at hg hcb
  subst hg hcb
  unfold byteEvents
  by_cases h1 : b ≥ 0xF8
  · rw [if_pos h1, if_pos h1]; exact ⟨h, fun _ => rfl⟩
  rw [if_neg h1, if_neg h1]
  by_cases h2 : b < 0x80
  · rw [if_pos h2, if_pos h2]
    match st, st', h with
    | .idle, .idle, _ => exact ⟨trivial, fun _ => rfl⟩
    | .message g s d, .message _ _ _, ⟨rfl, rfl, rfl⟩ => exact ⟨sameParse_refl _, fun _ => rfl⟩
    | .sysex g w d, .sysex _ w' _, ⟨rfl, rfl⟩ =>
      dsimp only
      split <;> exact ⟨⟨rfl, rfl⟩, fun _ => rfl⟩
  rw [if_neg h2, if_neg h2]
  by_cases h3 : b = 0xF7
  · rw [if_pos h3, if_pos h3]
    match st, st', h with
    | .idle, .idle, _ => exact ⟨trivial, fun _ => rfl⟩
    | .message g s d, .message _ _ _, ⟨rfl, rfl, rfl⟩ => exact ⟨trivial, fun _ => rfl⟩
    | .sysex g w d, .sysex _ w' _, ⟨rfl, rfl⟩ =>
      refine ⟨trivial, fun hc => ?_⟩
      dsimp only at hc ⊢
      simp only [hc, Bool.false_eq_true, if_false]
  rw [if_neg h3, if_neg h3]
  by_cases h4 : b = 0xF0
  · rw [if_pos h4, if_pos h4]; exact ⟨⟨rfl, rfl⟩, fun _ => rfl⟩
  rw [if_neg h4, if_neg h4]
  exact ⟨sameParse_refl _, fun _ => rfl⟩

theorem stepBytes_same {c c' : Settings} (hg : c.group = c'.group) (hcb : c.sysexCallback = c'.sysexCallback)
    (bs : List Byte) : ∀ {st st' : StreamState}, sameParse st st' →
    sameParse (stepBytes c st bs).1 (stepBytes c' st' bs).1 ∧
    (c.sysexCallback = false → c.enabled = c'.enabled → (stepBytes c st bs).2 = (stepBytes c' st' bs).2) := by
  induction bs with
  | nil => intro st st' h; exact ⟨h, fun _ _ => rfl⟩
  | cons b bs ih =>
    intro st st' h
    obtain ⟨h1, h2⟩ := byteEvents_same hg hcb h b
    obtain ⟨h3, h4⟩ := ih h1
    refine ⟨h3, fun hc hon => ?_⟩
    show (if c.enabled = true then (byteEvents c st b).2 else []) ++ (stepBytes c (byteEvents c st b).1 bs).2 =
      (if c'.enabled = true then (byteEvents c' st' b).2 else []) ++ (stepBytes c' (byteEvents c' st' b).1 bs).2
    rw [h4 hc hon, h2 hc, hon]

/-- C32: in packet mode, bytes fed while callbacks are disabled are parsed all the same. Enabling callbacks afterwards gives
the same events for whatever follows as if callbacks had been enabled all the time. -/
theorem C32_enabled_later (p : Parser) (hp : Reached p) (hm : p.hasSysexCallback = false) (bs rest : List Byte) :
    ∃ p1 p2 q1 q2 es before, p.run [.enable false, .feed bs, .enable true] = .ok (p1, []) ∧
      p.run [.enable true, .feed bs] = .ok (p2, before) ∧
      p1.feedAll rest = .ok (q1, es) ∧ p2.feedAll rest = .ok (q2, es) := by
  obtain ⟨st, r, hg⟩ := reached_rel hp
  obtain ⟨p1, e1, r1⟩ := run_rel [.enable false, .feed bs, .enable true] r (by simp [ValidGroups])
  obtain ⟨p2, e2, r2⟩ := run_rel [.enable true, .feed bs] r (by simp [ValidGroups])
  obtain ⟨q1, e3, r3⟩ := feedAll_rel rest r1
  obtain ⟨q2, e4, r4⟩ := feedAll_rel rest r2
  have e0 : opEvents ⟨p.group, p.hasSysexCallback, p.invokeCallbacks⟩ st [.enable false, .feed bs, .enable true] = [] := by
    show [] ++ ((stepBytes _ st bs).2 ++ ([] ++ [])) = ([] : List Event)
    rw [stepBytes_disabled _ rfl]; rfl
  rw [e0] at e1
  refine ⟨p1, p2, q1, q2, _, _, e1, e2, e3, ?_⟩
  rw [e4]
  have hs := (stepBytes_same (c := ⟨p.group, p.hasSysexCallback, false⟩) (c' := ⟨p.group, p.hasSysexCallback, true⟩) rfl rfl bs
    (sameParse_refl st)).1
  have := (stepBytes_same (c := ⟨p.group, p.hasSysexCallback, true⟩) (c' := ⟨p.group, p.hasSysexCallback, true⟩) rfl rfl rest hs).2
    hm rfl
  exact congrArg (fun e => Except.ok (q2, e)) this.symm

/-- C32: in callback mode the same holds for everything from the next status byte (other than sysex end) on; a sysex message
that started while callbacks were disabled is not delivered. -/
theorem C32_enabled_later_callback (p : Parser) (hp : Reached p) (bs rts rest : List Byte) (s : Byte)
    (hr : ∀ b ∈ rts, b ≥ 0xF8) (hs : 0x80 ≤ s ∧ s < 0xF8 ∧ s ≠ 0xF7) :
    ∃ p1 p2 q1 q2 es before, p.run [.enable false, .feed bs, .enable true] = .ok (p1, []) ∧
      p.run [.enable true, .feed bs] = .ok (p2, before) ∧
      p1.feedAll (rts ++ s :: rest) = .ok (q1, es) ∧ p2.feedAll (rts ++ s :: rest) = .ok (q2, es) ∧ Alike q1 q2 := by
  obtain ⟨st, r, hg⟩ := reached_rel hp
  obtain ⟨p1, e1, r1⟩ := run_rel [.enable false, .feed bs, .enable true] r (by simp [ValidGroups])
  obtain ⟨p2, e2, r2⟩ := run_rel [.enable true, .feed bs] r (by simp [ValidGroups])
  obtain ⟨q1, e3, r3⟩ := feedAll_rel (rts ++ s :: rest) r1
  obtain ⟨q2, e4, r4⟩ := feedAll_rel (rts ++ s :: rest) r2
  have e0 : opEvents ⟨p.group, p.hasSysexCallback, p.invokeCallbacks⟩ st [.enable false, .feed bs, .enable true] = [] := by
    show [] ++ ((stepBytes _ st bs).2 ++ ([] ++ [])) = ([] : List Event)
    rw [stepBytes_disabled _ rfl]; rfl
  rw [e0] at e1
  have hrt : ∀ (c : Settings) (rts : List Byte), (∀ b ∈ rts, b ≥ 0xF8) → ∀ st, (stepBytes c st rts).1 = st ∧
      ∀ st', (stepBytes c st' rts).2 = (stepBytes c st rts).2 := by
    intro c rts
    induction rts with
    | nil => intro _ st; exact ⟨rfl, fun _ => rfl⟩
    | cons b rts ih =>
      intro h st
      have hb := h b (by simp)
      have i := ih (fun x hx => h x (by simp [hx]))
      refine ⟨?_, fun st' => ?_⟩
      · rw [stepBytes_cons, step_rt c st hb]; exact (i st).1
      · rw [stepBytes_cons, stepBytes_cons, step_rt c st hb, step_rt c st' hb]
        show _ ++ _ = _ ++ _
        rw [(i st).2 st']
  have hall : ∀ st1 st2, stepBytes ⟨p.group, p.hasSysexCallback, true⟩ st1 (rts ++ s :: rest) =
      stepBytes ⟨p.group, p.hasSysexCallback, true⟩ st2 (rts ++ s :: rest) := by
    intro st1 st2
    have n1 : ¬ s ≥ 0xF8 := BitVec.not_le.2 hs.2.1
    have n2 : ¬ s < 0x80 := BitVec.not_lt.2 hs.1
    rw [stepBytes_append, stepBytes_append, (hrt _ rts hr st1).1, (hrt _ rts hr st2).1, (hrt _ rts hr st1).2 st2,
      stepBytes_cons, stepBytes_cons, step_status _ st1 n1 n2 hs.2.2, step_status _ st2 n1 n2 hs.2.2]
  have h12 := hall (runState ⟨p.group, p.hasSysexCallback, p.invokeCallbacks⟩ st [.enable false, .feed bs, .enable true]).2
    (runState ⟨p.group, p.hasSysexCallback, p.invokeCallbacks⟩ st [.enable true, .feed bs]).2
  refine ⟨p1, p2, q1, q2, _, _, e1, e2, e3, ?_, ?_⟩
  · rw [e4]
    exact congrArg (fun e => Except.ok (q2, e.2)) h12.symm
  · refine alike_of_rel r3 ?_
    have : (stepBytes ⟨p.group, p.hasSysexCallback, true⟩
      (runState ⟨p.group, p.hasSysexCallback, p.invokeCallbacks⟩ st [.enable true, .feed bs]).2 (rts ++ s :: rest)).1 = _ :=
      congrArg Prod.fst h12.symm
    show ParserRel ⟨p.group, p.hasSysexCallback, true⟩ (stepBytes ⟨p.group, p.hasSysexCallback, true⟩
      (runState ⟨p.group, p.hasSysexCallback, p.invokeCallbacks⟩ st [.enable false, .feed bs, .enable true]).2
      (rts ++ s :: rest)).1 q2
    rw [← this]
    exact r4

/-- C32: the note in progress is not lost; the sysex message that started while disabled is. -/
example : ∃ p, (Parser.new 0 true false).run [.feed [0xF0, 0x7E, 0xF7, 0x90, 1], .enable true, .feed [2], .enable false,
    .feed [0xF0, 0x7E], .enable true, .feed [1, 0xF7, 0xF0, 0x7D, 0xF7]] =
      .ok (p, [.packet ⟨0x20900102, 0, 0, 0⟩, .sysex ⟨0x7D0000, []⟩]) := ⟨_, rfl⟩

end Midi
