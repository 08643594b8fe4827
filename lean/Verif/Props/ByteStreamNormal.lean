import Verif.Props.ByteStreamSysex

/-!
# C56: parsing a byte stream and sending the result again

`parse → packets → to_midi1_byte_stream → parse`: what the second parser emits, and which byte streams stay as they are.
-/

namespace Midi
open Spec

/-! ## Helper lemmas -/

theorem streamBytes_shortMessage {g s : Byte} {d : List Byte} (hg : g < 16) (hs : shortStatus s)
    (hl : d.length = dataBytes s) : streamBytes (shortMessage g s d) = s :: d := by
  have hS : IsShort (shortMessage g s d) := by
    unfold IsShort
    rw [byteAt_short_0, byteAt_short_1, shortHead_type hg]
    rcases hs with h | h
    · left; exact ⟨if_neg (by clear hl; revert h; revert s; decide +kernel), h⟩
    · right; exact ⟨if_pos h.2, h⟩
  rw [streamBytes, if_pos hS, byteAt_short_1, shortMessage_data _ _ _ (by omega) (by omega),
    shortMessage_data _ _ _ (by omega) (by omega), ← hl]
  have h2 : d.length ≤ 2 := hl ▸ dataBytes_le s
  clear hl hS
  match d, h2 with
  | [], _ => rfl
  | [a], _ => rfl
  | [a, b], _ => rfl
  | a :: b :: c :: d, hl => simp only [List.length_cons] at hl; omega

theorem streamBytes_sysexPacket {g : Byte} (hg : g < 16) (f : Format) {d : List Byte} (hl : d.length ≤ 6) :
    streamBytes (sysexPacket g f.code.toNat d) =
      (if f.code.toNat ≤ 1 then [0xF0] else []) ++ d ++ (if f.code.toNat = 0 ∨ f.code.toNat = 3 then [0xF7] else []) := by
  obtain ⟨h1, _, h3, h4⟩ := chunk_facts hg (f, d) hl
  rw [streamBytes_sysex h1, h3, h4]

/-- Data bytes of sysex that do not complete a packet. -/
theorem stepBytes_collect (c : Settings) (hc : c.sysexCallback = false) (g : Byte) (w : Bool) : ∀ (l d : List Byte),
    (∀ b ∈ l, b < 0x80) → d.length % 6 + l.length < 6 → stepBytes c (.sysex g w d) l = (.sysex g w (d ++ l), []) := by
  intro l
  induction l with
  | nil => intro d _ _; simp [stepBytes]
  | cons b l ih =>
    intro d hb hl
    simp only [List.length_cons] at hl
    rw [stepBytes_cons, step_sysex_packet c g w d (hb b (by simp)) hc, if_neg (by omega)]
    rw [ih (d ++ [b]) (fun x hx => hb x (by simp [hx])) (by simp; omega)]
    simp

/-- Six data bytes of sysex. -/
theorem stepBytes_six (c : Settings) (hc : c.sysexCallback = false) (hon : c.enabled = true) (w : Bool) (l d : List Byte)
    (hb : ∀ b ∈ l, b < 0x80) (hl : l.length = 6) (hd : d.length % 6 = 0) :
    stepBytes c (.sysex c.group w d) l =
      (.sysex c.group w (d ++ l), [.packet (sysexPacket c.group (if d.length < 6 then 1 else 2) l)]) := by
  have hne : l ≠ [] := by rintro rfl; simp at hl
  obtain ⟨x, a, rfl⟩ : ∃ x a, l = x ++ [a] := ⟨l.dropLast, l.getLast hne, (List.dropLast_concat_getLast hne).symm⟩
  simp only [List.length_append, List.length_singleton] at hl
  rw [stepBytes_append, stepBytes_collect c hc _ w x d (fun b h => hb b (by simp [h])) (by omega), stepBytes_cons,
    step_sysex_packet c _ w _ (hb a (by simp)) hc, if_pos (by simp; omega), if_pos hon]
  simp only [stepBytes, List.append_assoc, List.nil_append, List.append_nil, List.length_append]
  congr 4
  · have : d.length + x.length < 6 ↔ d.length < 6 := by omega
    simp [this]
  · have : d.length + x.length + 1 - 6 = d.length := by omega
    rw [this, List.drop_left]

/-- The bytes of the packets among some events. -/
theorem bytesOf_nil : ((packetsOf []).map streamBytes).flatten = [] := rfl
theorem bytesOf_one (p : Packet) : ((packetsOf [.packet p]).map streamBytes).flatten = streamBytes p := by
  simp [packetsOf]

/-- How the states of the two parsers are related: within sysex, once a packet has been emitted, the second one has seen the
data bytes emitted so far. -/
def Follows (g : Byte) : StreamState → StreamState → Prop
  | .sysex _ _ d, st' => 6 ≤ d.length → ∃ w, st' = .sysex g w (d.take (d.length / 6 * 6))
  | _, _ => True

theorem follows_step {g : Byte} (hg : g < 16) (st st' : StreamState) (hst : GoodState [g] st) (hf : Follows g st st')
    (b : Byte) : ∃ st2', stepBytes ⟨g, false, true⟩ st' ((packetsOf (stepByte ⟨g, false, true⟩ st b).2).map streamBytes).flatten =
      (st2', (stepByte ⟨g, false, true⟩ st b).2) ∧ Follows g (stepByte ⟨g, false, true⟩ st b).1 st2' := by
  generalize hc : (⟨g, false, true⟩ : Settings) = c
  have hcg : c.group = g := by rw [← hc]
  have hcb : c.sysexCallback = false := by rw [← hc]
  have hon : c.enabled = true := by rw [← hc]
  have short : ∀ (s : Byte) (d : List Byte) (new : StreamState), shortStatus s → d.length = dataBytes s →
      (∀ b ∈ d, b < 0x80) → (∀ st2', Follows g new st2') →
      ∃ st2', stepBytes c st' ((packetsOf [.packet (shortMessage g s d)]).map streamBytes).flatten =
        (st2', [.packet (shortMessage g s d)]) ∧ Follows g new st2' := by
    intro s d new hs hl hd hn
    rw [bytesOf_one, streamBytes_shortMessage hg hs hl]
    refine ⟨(stepBytes c st' (s :: d)).1, ?_, hn _⟩
    rw [← hcg, ← stepBytes_short c hon st' hs hl hd]
  by_cases h1 : b ≥ 0xF8
  · rw [step_rt c st h1, if_pos hon]
    dsimp only
    split
    · exact ⟨st', rfl, hf⟩
    · next hu =>
      have hs : shortStatus b ∧ dataBytes b = 0 := by clear short; revert h1 hu; revert b; decide +kernel
      rw [bytesOf_one, hcg, streamBytes_shortMessage hg hs.1 (by simpa using hs.2.symm)]
      refine ⟨st', ?_, hf⟩
      rw [stepBytes_cons, step_rt c st' h1, if_pos hon, if_neg hu, hcg]; rfl
  by_cases h2 : b < 0x80
  · match st, hst, hf with
    | .idle, _, _ => rw [step_idle c h2]; exact ⟨st', rfl, trivial⟩
    | .message g' s d, hst, _ =>
      obtain ⟨hg', hs, hl, hd⟩ := hst
      simp only [List.mem_singleton] at hg'; subst hg'
      have hd' : ∀ x ∈ d ++ [b], x < 0x80 := by
        intro x hx
        rcases List.mem_append.1 hx with hx | hx
        · exact hd x hx
        · simp only [List.mem_singleton] at hx; subst hx; exact h2
      rw [step_message c _ s d h2]
      by_cases hn : d.length + 1 = dataBytes s
      · rw [if_pos hn, if_pos hon]
        exact short s (d ++ [b]) _ hs (by simpa using hn) hd' (by intro st2'; split <;> trivial)
      · rw [if_neg hn]; exact ⟨st', rfl, trivial⟩
    | .sysex g' w d, hst, hf =>
      obtain ⟨hg', hd⟩ := hst
      simp only [List.mem_singleton] at hg'; subst hg'
      have hd' : ∀ x ∈ d ++ [b], x < 0x80 := by
        intro x hx
        rcases List.mem_append.1 hx with hx | hx
        · exact hd x hx
        · simp only [List.mem_singleton] at hx; subst hx; exact h2
      rw [step_sysex_packet c _ w d h2 hcb]
      by_cases h6 : (d.length + 1) % 6 = 0
      · rw [if_pos h6, if_pos hon]
        dsimp only
        by_cases hlt : d.length < 6
        · have h5 : d.length = 5 := by omega
          rw [if_pos hlt, bytesOf_one]
          have := streamBytes_sysexPacket hg .start (d := (d ++ [b]).drop (d.length + 1 - 6)) (by simp; omega)
          have e1 : Format.start.code.toNat = 1 := rfl
          rw [e1] at this
          rw [this, if_pos (by omega), if_neg (by omega), h5]
          have hdr : (d ++ [b]).drop (5 + 1 - 6) = d ++ [b] := rfl
          rw [hdr, List.append_nil, List.singleton_append, stepBytes_cons, step_start, List.nil_append, stepBytes_six c hcb hon _ (d ++ [b]) [] hd' (by simp [h5]) rfl]
          rw [if_pos (by simp), hcg]
          refine ⟨_, rfl, fun _ => ⟨c.enabled, ?_⟩⟩
          have : (d ++ [b]).length = 6 := by simp [h5]
          rw [this, List.take_of_length_le (by omega)]
          rfl
        · obtain ⟨w', rfl⟩ := hf (by omega)
          rw [if_neg hlt, bytesOf_one]
          have hdl : ((d ++ [b]).drop (d.length + 1 - 6)).length = 6 := by simp; omega
          have := streamBytes_sysexPacket hg .cont (d := (d ++ [b]).drop (d.length + 1 - 6)) (by omega)
          have e1 : Format.cont.code.toNat = 2 := rfl
          rw [e1] at this
          rw [this, if_neg (by omega), if_neg (by omega), List.append_nil, List.nil_append]
          have ht : (d.take (d.length / 6 * 6)).length = d.length / 6 * 6 := by rw [List.length_take]; omega
          have hk : d.length / 6 * 6 = d.length + 1 - 6 := by omega
          have hs := stepBytes_six c hcb hon w' ((d ++ [b]).drop (d.length + 1 - 6)) (d.take (d.length / 6 * 6))
            (fun x hx => hd' x (List.mem_of_mem_drop hx)) hdl (by rw [ht]; omega)
          rw [ht, if_neg (by omega), hcg] at hs
          refine ⟨_, hs, fun _ => ⟨w', ?_⟩⟩
          have e : (d ++ [b]).length / 6 * 6 = (d ++ [b]).length := by simp; omega
          rw [e, List.take_length, hk]
          have : d.take (d.length + 1 - 6) = (d ++ [b]).take (d.length + 1 - 6) := by
            rw [List.take_append_of_le_length (by omega)]
          rw [this, List.take_append_drop]
      · rw [if_neg h6]
        refine ⟨st', rfl, fun h => ?_⟩
        have hl : 6 ≤ d.length := by simp at h; omega
        obtain ⟨w', e⟩ := hf hl
        refine ⟨w', ?_⟩
        have e2 : (d ++ [b]).length / 6 * 6 = d.length / 6 * 6 := by simp; omega
        rw [e, e2, List.take_append_of_le_length (by omega)]
  by_cases h3 : b = 0xF7
  · subst h3
    match st, hst, hf with
    | .idle, _, _ | .message .., _, _ => rw [step_end_other _ _ (by simp)]; exact ⟨st', rfl, trivial⟩
    | .sysex g' w d, hst, hf =>
      obtain ⟨hg', hd⟩ := hst
      simp only [List.mem_singleton] at hg'; subst hg'
      rw [step_end_packet c _ w d hcb, if_pos hon]
      dsimp only
      by_cases h0 : d = []
      · rw [if_pos h0]; exact ⟨st', rfl, trivial⟩
      rw [if_neg h0]
      by_cases hlt : d.length < 6
      · rw [if_pos hlt, bytesOf_one]
        have := streamBytes_sysexPacket hg .complete (d := d) (by omega)
        have e1 : Format.complete.code.toNat = 0 := rfl
        rw [e1] at this
        rw [this, if_pos (by omega), if_pos (by omega)]
        rw [List.append_assoc, List.singleton_append, stepBytes_cons, step_start, stepBytes_append,
          stepBytes_collect c hcb _ _ d [] hd (by simpa using hlt), stepBytes_cons, List.nil_append,
          step_end_packet c _ _ d hcb, if_pos hon, if_neg h0, if_pos hlt, hcg]
        exact ⟨_, rfl, trivial⟩
      · obtain ⟨w', rfl⟩ := hf (by omega)
        rw [if_neg hlt, bytesOf_one]
        have := streamBytes_sysexPacket hg .fin (d := d.drop (d.length / 6 * 6)) (by simp; omega)
        have e1 : Format.fin.code.toNat = 3 := rfl
        rw [e1] at this
        rw [this, if_neg (by omega), if_pos (by omega), List.nil_append]
        have ht : (d.take (d.length / 6 * 6)).length = d.length / 6 * 6 := by rw [List.length_take]; omega
        rw [stepBytes_append, stepBytes_collect c hcb _ _ _ _ (fun x hx => hd x (List.mem_of_mem_drop hx))
          (by rw [ht, List.length_drop]; omega), List.take_append_drop, stepBytes_cons,
          step_end_packet c _ _ d hcb, if_pos hon, if_neg h0, if_neg hlt]
        exact ⟨_, rfl, trivial⟩
  · by_cases h4 : b = 0xF0
    · subst h4; rw [step_start]; exact ⟨st', rfl, fun h => by simp at h⟩
    by_cases h5 : b = 0xF6
    · subst h5; rw [step_tune, if_pos hon, hcg]
      exact short 0xF6 [] _ (by decide) (by decide) (by simp) (fun _ => trivial)
    by_cases h6 : b = 0xF4 ∨ b = 0xF5
    · rw [step_undefined _ _ h6]; exact ⟨st', rfl, trivial⟩
    · have : dataBytes b ≠ 0 := by
        have hx : ¬ (b ≥ 0xF8 ∨ b < 0x80 ∨ b = 0xF7 ∨ b = 0xF0 ∨ b = 0xF6 ∨ b = 0xF4 ∨ b = 0xF5) := by
          simp only [not_or] at h6 ⊢; exact ⟨h1, h2, h3, h4, h5, h6⟩
        clear short h1 h2 h3 h4 h5 h6; revert hx; revert b; decide +kernel
      rw [step_new c st h1 this]; exact ⟨st', rfl, trivial⟩

theorem follows_steps {g : Byte} (hg : g < 16) (bs : List Byte) : ∀ st st' : StreamState, GoodState [g] st →
    Follows g st st' →
    (stepBytes ⟨g, false, true⟩ st' ((packetsOf (stepBytes ⟨g, false, true⟩ st bs).2).map streamBytes).flatten).2 =
      (stepBytes ⟨g, false, true⟩ st bs).2 := by
  induction bs with
  | nil => intro st st' _ _; rfl
  | cons b bs ih =>
    intro st st' hst hf
    obtain ⟨st2', e, hf'⟩ := follows_step hg st st' hst hf b
    have hgood := (step_good [g] ⟨g, false, true⟩ (by simp) st hst b).1
    rw [stepBytes_cons]
    dsimp only
    rw [packetsOf_append, List.map_append, List.flatten_append, stepBytes_append, e]
    dsimp only
    rw [ih _ st2' hgood hf']

/-! ## C56 -/

/-- C56: every byte sequence is parsed without fault; the packets that result can be converted to a byte stream, and any other
parser of the same group that emits packets, whatever it has seen before, emits the same packets for it, and nothing else. -/
theorem C56_reparse (g : Byte) (hg : g < 16) (bs : List Byte) (q : Parser) (hq : Reached q) (hqg : q.group = g)
    (hcb : q.hasSysexCallback = false) (hon : q.invokeCallbacks = true) :
    ∃ p es bss q', (Parser.new g false true).feedAll bs = .ok (p, es) ∧ (packetsOf es).mapM toMidi1ByteStream = .ok bss ∧
      q.feedAll bss.flatten = .ok (q', es) ∧ es = (packetsOf es).map .packet := by
  obtain ⟨p, e⟩ := C26_parser_bytes g false bs hg
  obtain ⟨st, r, _⟩ := reached_rel hq
  rw [hqg, hcb, hon] at r
  obtain ⟨q', e', _⟩ := feedAll_rel ((packetsOf (stepBytes ⟨g, false, true⟩ .idle bs).2).map streamBytes).flatten r
  refine ⟨p, _, _, q', e, mapM_stream _, ?_, ?_⟩
  · rw [e', follows_steps hg bs .idle st trivial trivial]
  · have h := (stepBytes_good [g] ⟨g, false, true⟩ (by simp) bs .idle trivial).2
    generalize (stepBytes ⟨g, false, true⟩ StreamState.idle bs).2 = es at h
    induction es with
    | nil => rfl
    | cons x es ih =>
      have : ∃ p, x = .packet p := by
        cases h x (by simp) with
        | short g s d => exact ⟨_, rfl⟩
        | data g f d => exact ⟨_, rfl⟩
        | sysex d hd hc => simp at hc
      obtain ⟨pk, rfl⟩ := this
      have := ih fun e he => h e (by simp [he])
      simp only [packetsOf, List.filterMap_cons, List.map_cons, List.cons.injEq, true_and] at this ⊢
      exact this

/-- C56: bytes with running status, data bytes without status, an undefined status byte, sysex without data, an interrupted
sysex and one of eight bytes with a clock in between. -/
example : ∃ p q, (Parser.new 2 false true).feedAll [0x11, 0x90, 0x3C, 0x40, 0x3C, 0x00, 0xF4, 0x22, 0xF0, 0xF7, 0xF0, 1, 2, 3, 4, 5, 6, 7,
      0x80, 1, 2, 0xF0, 1, 2, 3, 4, 5, 6, 7, 0xF8, 8, 0xF7] = .ok (p, [.packet ⟨0x22903C40, 0, 0, 0⟩, .packet ⟨0x22903C00, 0, 0, 0⟩,
      .packet ⟨0x32160102, 0x03040506, 0, 0⟩, .packet ⟨0x22800102, 0, 0, 0⟩, .packet ⟨0x32160102, 0x03040506, 0, 0⟩,
      .packet ⟨0x12F80000, 0, 0, 0⟩, .packet ⟨0x32320708, 0, 0, 0⟩]) ∧
    (Parser.new 2 false true).feedAll [0x90, 0x3C, 0x40, 0x90, 0x3C, 0x00, 0xF0, 1, 2, 3, 4, 5, 6, 0x80, 1, 2, 0xF0, 1, 2, 3, 4, 5, 6,
      0xF8, 7, 8, 0xF7] = .ok (q, [.packet ⟨0x22903C40, 0, 0, 0⟩, .packet ⟨0x22903C00, 0, 0, 0⟩,
      .packet ⟨0x32160102, 0x03040506, 0, 0⟩, .packet ⟨0x22800102, 0, 0, 0⟩, .packet ⟨0x32160102, 0x03040506, 0, 0⟩,
      .packet ⟨0x12F80000, 0, 0, 0⟩, .packet ⟨0x32320708, 0, 0, 0⟩]) := ⟨_, _, rfl, rfl⟩

theorem message_bytes {g : Byte} (hg : g < 16) {m : List Byte} (hm : Message1 m) (st : StreamState) :
    ((packetsOf (stepBytes ⟨g, false, true⟩ st m).2).map streamBytes).flatten = m := by
  cases hm with
  | short s d hs hl hd =>
    rw [stepBytes_short ⟨g, false, true⟩ rfl st hs hl hd, bytesOf_one, streamBytes_shortMessage hg hs hl]
  | sysex d h0 hd =>
    rw [sysex_packets ⟨g, false, true⟩ rfl rfl st d hd, if_neg h0]
    obtain ⟨f1, f2, _, f4, _⟩ := parserChunks_facts d
    obtain ⟨ps, c1, c2, c3, c4, _⟩ := chunk_events hg (parserChunks d) f4
    have e : packetsOf ((parserChunks d).map (chunkEvent g)) = ps := by
      rw [c1]; simp [packetsOf, List.filterMap_map, Function.comp_def]
    dsimp only
    rw [e, stream_framed ps (fun q hq => (c2 q hq).1) (by rw [c3]; exact f1), c4, f2]

/-- C56: a byte stream made of complete messages, each with its status byte, is unchanged by parsing it and converting the
packets to a byte stream, whatever the parser has seen before. -/
theorem C56_unchanged (p : Parser) (hp : Reached p) (hcb : p.hasSysexCallback = false) (hon : p.invokeCallbacks = true)
    (ms : List (List Byte)) (hms : ∀ m ∈ ms, Message1 m) :
    ∃ p' es bss, p.feedAll ms.flatten = .ok (p', es) ∧ (packetsOf es).mapM toMidi1ByteStream = .ok bss ∧
      bss.flatten = ms.flatten := by
  obtain ⟨st, r, hx⟩ := reached_rel hp
  have hg := r.lt
  rw [hcb, hon] at r
  dsimp only at hg
  obtain ⟨p', e, hy⟩ := feedAll_rel ms.flatten r
  refine ⟨p', _, _, e, mapM_stream _, ?_⟩
  clear e r hx hy
  induction ms generalizing st with
  | nil => rfl
  | cons m ms ih =>
    rw [List.flatten_cons, stepBytes_append]
    dsimp only
    rw [packetsOf_append, List.map_append, List.flatten_append, message_bytes hg (hms m (by simp)),
      ih (fun m hm => hms m (by simp [hm]))]

/-- C56: a note on message, sysex of seven bytes and a clock. -/
example : ∀ m ∈ [[0x90, 0x3C, 0x40], [0xF0, 1, 2, 3, 4, 5, 6, 7, 0xF7], [(0xF8 : Byte)]], Message1 m := by
  intro m hm
  simp only [List.mem_cons, List.not_mem_nil, or_false] at hm
  rcases hm with rfl | rfl | rfl
  · exact .short 0x90 [0x3C, 0x40] (by decide) (by decide) (by decide)
  · exact .sysex [1, 2, 3, 4, 5, 6, 7] (by decide) (by decide)
  · exact .short 0xF8 [] (by decide) (by decide) (by decide)

/-- C56: sysex without data is not a message: it leaves no trace. -/
example : ∃ p, (Parser.new 0 false true).feedAll [0xF0, 0xF7] = .ok (p, []) := ⟨_, rfl⟩

end Midi
