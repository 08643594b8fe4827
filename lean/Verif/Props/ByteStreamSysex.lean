import Verif.Lemmas.StreamSysex
import Verif.Props.ByteStreamConvert
import Verif.Props.Collector7

/-!
# C29, C30, C35, C36: sysex in MIDI 1 byte streams
-/

namespace Midi
open Spec

/-! ## Helper lemmas -/

/-- The bytes of a sysex message with real time bytes in between. -/
theorem filter_sysex {l D : List Byte} (h : l.filter (fun b => decide (b < 0xF8)) = D) (e : Byte) (he : e < 0xF8) :
    (0xF0 :: (l ++ [e])).filter (fun b => decide (b < 0xF8)) = 0xF0 :: (D ++ [e]) := by
  rw [List.filter_cons_of_pos (by decide), List.filter_append, h, List.filter_cons_of_pos (by simpa using he)]; rfl

/-- Feeding bytes with real time bytes in between: the other events are those of the other bytes. -/
theorem feed_filtered {p : Parser} (hp : Reached p) (bs fs : List Byte)
    (h : bs.filter (fun b => decide (b < 0xF8)) = fs) :
    ∃ st p' es, ParserRel ⟨p.group, p.hasSysexCallback, p.invokeCallbacks⟩ st p ∧ groupOk st ∧
      p.feedAll bs = .ok (p', es) ∧ ParserRel ⟨p.group, p.hasSysexCallback, p.invokeCallbacks⟩
        (stepBytes ⟨p.group, p.hasSysexCallback, p.invokeCallbacks⟩ st fs).1 p' ∧
      es.filter (fun e => !isRealTime e) = (stepBytes ⟨p.group, p.hasSysexCallback, p.invokeCallbacks⟩ st fs).2 := by
  obtain ⟨st, r, hg⟩ := reached_rel hp
  obtain ⟨p', e, r'⟩ := feedAll_rel bs r
  obtain ⟨h1, h2, _⟩ := stepBytes_rt _ (by exact r.lt) bs st hg
  subst h
  exact ⟨st, p', _, r, hg, e, h1 ▸ r', h2⟩

theorem alike_new {p p' : Parser} (h : ParserRel ⟨p.group, p.hasSysexCallback, p.invokeCallbacks⟩ .idle p') :
    Alike p' (Parser.new p.group p.hasSysexCallback p.invokeCallbacks) :=
  alike_of_rel h (new_rel h.lt _ _)

theorem chunk_events_aux {g : Byte} (pk : Chunk → Packet) (cs : List Chunk)
    (h : ∀ c ∈ cs, IsSysex7 (pk c) ∧ groupOf (pk c) = g.toNat ∧ formatCode (pk c) = c.1.code.toNat ∧ payload7 (pk c) = c.2) :
    (∀ p ∈ cs.map pk, IsSysex7 p ∧ groupOf p = g.toNat) ∧
      (cs.map pk).map formatCode = cs.map (·.1.code.toNat) ∧ (cs.map pk).flatMap payload7 = cs.flatMap (·.2) ∧
      (cs.map pk).map (fun p => (payload7 p).length) = cs.map (fun c => c.2.length) := by
  refine ⟨?_, ?_, ?_, ?_⟩
  · intro p hp
    obtain ⟨c, hc, rfl⟩ := List.mem_map.1 hp
    exact ⟨(h c hc).1, (h c hc).2.1⟩
  · rw [List.map_map]; exact List.map_congr_left fun c hc => (h c hc).2.2.1
  · rw [List.flatMap_map]; exact flatMap_congr_mem fun c hc => (h c hc).2.2.2
  · rw [List.map_map]; exact List.map_congr_left fun c hc => congrArg List.length (h c hc).2.2.2

theorem chunk_events {g : Byte} (hg : g < 16) (cs : List Chunk) (h : ∀ c ∈ cs, c.2.length ≤ 6) :
    ∃ ps : List Packet, cs.map (chunkEvent g) = ps.map .packet ∧ (∀ p ∈ ps, IsSysex7 p ∧ groupOf p = g.toNat) ∧
      ps.map formatCode = cs.map (·.1.code.toNat) ∧ ps.flatMap payload7 = cs.flatMap (·.2) ∧
      ps.map (fun p => (payload7 p).length) = cs.map (fun c => c.2.length) := by
  obtain ⟨pk, hpk⟩ : ∃ pk : Chunk → Packet, ∀ c, sysexPacket g c.1.code.toNat c.2 = pk c := ⟨_, fun _ => rfl⟩
  have k : ∀ c ∈ cs, IsSysex7 (pk c) ∧ groupOf (pk c) = g.toNat ∧ formatCode (pk c) = c.1.code.toNat ∧
      payload7 (pk c) = c.2 := by
    intro c hc
    rw [← hpk c]; exact chunk_facts hg c (h c hc)
  refine ⟨cs.map pk, ?_, chunk_events_aux pk cs k⟩
  rw [List.map_map]
  refine List.map_congr_left fun c _ => ?_
  rw [chunkEvent, hpk c]; rfl

theorem full_dropLast {ps : List Packet} {cs : List Chunk}
    (h : ps.map (fun p => (payload7 p).length) = cs.map (fun c => c.2.length)) (hc : ∀ c ∈ cs.dropLast, c.2.length = 6) :
    ∀ p ∈ ps.dropLast, (payload7 p).length = 6 := by
  intro p hp
  have h' : (ps.dropLast).map (fun p => (payload7 p).length) = (cs.dropLast).map (fun c => c.2.length) := by
    rw [List.map_dropLast, List.map_dropLast, h]
  have : (payload7 p).length ∈ (ps.dropLast).map (fun p => (payload7 p).length) := List.mem_map.2 ⟨p, hp, rfl⟩
  rw [h'] at this
  obtain ⟨c, hc', e⟩ := List.mem_map.1 this
  rw [← e]; exact hc c hc'

/-- Bytes of manufacturer ids are 7 bit. -/
theorem idBytes7_lt {id : Word} (hid : GenuineId id) : ∀ b ∈ idBytes7 id, b < 0x80 := by
  intro b hb
  have hw := id.isLt
  show b.toNat < 128
  unfold idBytes7 at hb
  split at hb
  · next h0 =>
    simp only [List.mem_cons, List.not_mem_nil, or_false] at hb
    rcases hid with ⟨h1, h2, h3⟩ | ⟨h1, h2, h3⟩
    · omega
    · rcases hb with rfl | rfl | rfl
      · decide
      · rw [BitVec.toNat_ofNat]; omega
      · rw [BitVec.toNat_ofNat]; omega
  · next h0 =>
    simp only [List.mem_singleton] at hb
    subst hb
    rw [BitVec.toNat_ofNat]
    rcases hid with ⟨h1, h2, h3⟩ | ⟨h1, h2, h3⟩ <;> omega

/-! ## C29 -/

/-- C29: in packet mode, from any state of the parser, F0, any number of data bytes and F7, possibly with real time bytes in
between, give (apart from the real time packets) sysex7 packets in the group of the parser: a complete packet, or a start
packet, continue packets and an end packet, all but the last one with six bytes, whose payload is exactly the data bytes.
There is no packet if there are no data bytes. Then the parser is like new. -/
theorem C29_sysex_packets (p : Parser) (hp : Reached p) (hm : p.hasSysexCallback = false) (hon : p.invokeCallbacks = true)
    (l D : List Byte) (hl : l.filter (fun b => decide (b < 0xF8)) = D) (hD : ∀ b ∈ D, b < 0x80) :
    ∃ p' es ps, p.feedAll (0xF0 :: (l ++ [0xF7])) = .ok (p', es) ∧ es.filter (fun e => !isRealTime e) = ps.map .packet ∧
      (∀ q ∈ ps, IsSysex7 q ∧ groupOf q = p.group.toNat) ∧ ps.flatMap payload7 = D ∧
      (if D = [] then ps = [] else Framed (ps.map formatCode)) ∧ (∀ q ∈ ps.dropLast, (payload7 q).length = 6) ∧
      Alike p' (Parser.new p.group p.hasSysexCallback p.invokeCallbacks) := by
  obtain ⟨st, p', es, r, hg, e, r', hes⟩ := feed_filtered hp _ _ (filter_sysex hl 0xF7 (by decide))
  have hg16 : p.group < 16 := r.lt
  rw [sysex_packets _ hm hon st D hD] at hes r'
  by_cases h0 : D = []
  · refine ⟨p', es, [], e, by rw [hes, if_pos h0]; rfl, by simp, by simp [h0], by rw [if_pos h0], by simp, alike_new r'⟩
  · rw [if_neg h0] at hes
    obtain ⟨f1, f2, f3, f4, _⟩ := parserChunks_facts D
    obtain ⟨ps, c1, c2, c3, c4, c5⟩ := chunk_events hg16 (parserChunks D) f4
    refine ⟨p', es, ps, e, by rw [hes]; exact c1, c2, by rw [c4, f2], ?_, full_dropLast c5 f3, alike_new r'⟩
    rw [if_neg h0, c3]; exact f1

/-- C29: two, six and fourteen data bytes. -/
example : ∃ p, (Parser.new 1 false true).feedAll ([0xF0, 0x7E, 0xF8, 0x01, 0xF7] ++ [0xF0, 1, 2, 3, 4, 5, 6, 0xF7] ++
    [0xF0, 1, 2, 3, 4, 5, 6, 7, 8, 9, 10, 11, 12, 13, 14, 0xF7]) = .ok (p,
    [.packet ⟨0x11F80000, 0, 0, 0⟩, .packet ⟨0x31027E01, 0, 0, 0⟩, .packet ⟨0x31160102, 0x03040506, 0, 0⟩,
      .packet ⟨0x31300000, 0, 0, 0⟩, .packet ⟨0x31160102, 0x03040506, 0, 0⟩, .packet ⟨0x31260708, 0x090A0B0C, 0, 0⟩,
      .packet ⟨0x31320D0E, 0, 0, 0⟩]) := ⟨_, rfl⟩

/-! ## C30 -/

/-- C30: in callback mode, from any state of the parser, F0, a manufacturer id of one or three bytes, any number of data
bytes and F7, possibly with real time bytes in between, cause exactly one sysex message with that manufacturer id and these
data (apart from the real time packets). Then the parser is like new. -/
theorem C30_sysex_callback (p : Parser) (hp : Reached p) (hm : p.hasSysexCallback = true) (hon : p.invokeCallbacks = true)
    (m : Sysex) (hid : GenuineId m.manufacturerID) (hd : ∀ b ∈ m.data, b < 0x80) (l : List Byte)
    (hl : l.filter (fun b => decide (b < 0xF8)) = idBytes7 m.manufacturerID ++ m.data) :
    ∃ p' es, p.feedAll (0xF0 :: (l ++ [0xF7])) = .ok (p', es) ∧ es.filter (fun e => !isRealTime e) = [.sysex m] ∧
      Alike p' (Parser.new p.group p.hasSysexCallback p.invokeCallbacks) := by
  obtain ⟨st, p', es, r, hg, e, r', hes⟩ := feed_filtered hp _ _ (filter_sysex hl 0xF7 (by decide))
  have hlt := idBytes7_lt hid
  have hall : ∀ b ∈ idBytes7 m.manufacturerID ++ m.data, b < 0x80 := by
    intro b hb
    rcases List.mem_append.1 hb with h | h
    · exact hlt b h
    · exact hd b h
  have hH : HasId (idBytes7 m.manufacturerID ++ m.data) := by
    have hw := m.manufacturerID.isLt
    unfold idBytes7 HasId
    split
    · right; simp
    · next h0 =>
      left
      refine ⟨?_, by simp⟩
      simp only [List.cons_append, List.head?_cons, ne_eq, Option.some.injEq]
      intro h
      have := congrArg BitVec.toNat h
      rw [BitVec.toNat_ofNat] at this
      rcases hid with ⟨h1, h2, h3⟩ | ⟨h1, h2, h3⟩
      · simp at this; omega
      · omega
  rw [sysex_callback _ hm hon st _ hall, if_pos hH, message7_id _ hid] at hes
  rw [sysex_callback _ hm hon st _ hall] at r'
  exact ⟨p', es, e, hes, alike_new r'⟩

example := C30_sysex_callback (Parser.new 3 true true) (reached_new (by decide) _ _) rfl rfl ⟨0x002109, [1, 2]⟩ (by decide) (by decide)
  [0x00, 0x21, 0xF8, 0x09, 1, 0xFE, 2] (by decide)

/-- C30: sysex without a complete manufacturer id is not delivered. -/
theorem C30_incomplete_id (p : Parser) (hp : Reached p) (hm : p.hasSysexCallback = true) (l : List Byte)
    (h7 : ∀ b ∈ l, b < 0x80) (hl : l = [] ∨ l.head? = some 0 ∧ l.length < 3) :
    ∃ p', p.feedAll (0xF0 :: (l ++ [0xF7])) = .ok (p', []) ∧
      Alike p' (Parser.new p.group p.hasSysexCallback p.invokeCallbacks) := by
  obtain ⟨st, r, hg⟩ := reached_rel hp
  obtain ⟨p', e, r'⟩ := feedAll_rel (0xF0 :: (l ++ [0xF7])) r
  by_cases hon : p.invokeCallbacks = true
  · have hno : ¬ HasId l := by
      rintro (⟨h1, h2⟩ | h)
      · rcases hl with rfl | h
        · exact h2 rfl
        · exact h1 h.1
      · rcases hl with rfl | ⟨_, h'⟩
        · simp at h
        · omega
    rw [sysex_callback _ hm hon st l h7, if_neg hno] at e r'
    exact ⟨p', e, alike_new r'⟩
  · have hoff : p.invokeCallbacks = false := by simpa using hon
    rw [stepBytes_disabled _ hoff] at e
    refine ⟨p', e, alike_new ?_⟩
    rw [stepBytes_cons, step_start] at r'
    dsimp only at r'
    rw [stepBytes_append, sysex_data_cb _ hm _ _ l [] h7, stepBytes_cons, step_end_cb _ _ _ _ hm] at r'
    exact r'

/-- C30: sysex interrupted by a status byte other than F7 and real time bytes is not delivered: what follows is the same as
if the parser had been reset. -/
theorem C30_aborted (p : Parser) (hp : Reached p) (hm : p.hasSysexCallback = true) (l rest : List Byte) (s : Byte)
    (h7 : ∀ b ∈ l, b < 0x80) (hs : 0x80 ≤ s ∧ s < 0xF8 ∧ s ≠ 0xF7) :
    ∃ p1 p2 es, p.feedAll (0xF0 :: (l ++ s :: rest)) = .ok (p1, es) ∧ p.reset.feedAll (s :: rest) = .ok (p2, es) ∧
      Alike p1 p2 := by
  obtain ⟨st, r, hg⟩ := reached_rel hp
  obtain ⟨p1, e1, r1⟩ := feedAll_rel (0xF0 :: (l ++ s :: rest)) r
  have rr : ParserRel ⟨p.group, p.hasSysexCallback, p.invokeCallbacks⟩ .idle p.reset := ⟨rfl, rfl, rfl, r.lt, rfl⟩
  obtain ⟨p2, e2, r2⟩ := feedAll_rel (s :: rest) rr
  have key : stepBytes ⟨p.group, p.hasSysexCallback, p.invokeCallbacks⟩ st (0xF0 :: (l ++ s :: rest)) =
      stepBytes ⟨p.group, p.hasSysexCallback, p.invokeCallbacks⟩ .idle (s :: rest) := by
    rw [stepBytes_cons, step_start]
    dsimp only
    rw [stepBytes_append, sysex_data_cb _ hm _ _ l [] h7]
    dsimp only
    rw [stepBytes_cons, step_status _ _ (BitVec.not_le.2 hs.2.1) (BitVec.not_lt.2 hs.1) hs.2.2]
    rfl
  rw [key] at e1 r1
  exact ⟨p1, p2, _, e1, e2, alike_of_rel r1 r2⟩

/-- C30: a message with a three byte id, an interrupted one and one with a one byte id. -/
example : ∃ p, (Parser.new 0 true true).feedAll [0xF0, 0x00, 0x21, 0xFE, 0x09, 0x11, 0x22, 0xF7, 0xF0, 0x7E, 0x33, 0x90, 0x40,
    0x41, 0xF0, 0x7D, 0xF7] = .ok (p, [.packet ⟨0x10FE0000, 0, 0, 0⟩, .sysex ⟨0x002109, [0x11, 0x22]⟩,
      .packet ⟨0x20904041, 0, 0, 0⟩, .sysex ⟨0x7D0000, []⟩]) := ⟨_, rfl⟩

/-! ## C35 -/

theorem mapM_stream (ps : List Packet) : ps.mapM toMidi1ByteStream = .ok (ps.map streamBytes) := by
  induction ps with
  | nil => rfl
  | cons q ps ih => rw [List.mapM_cons, (C33_to_byte_stream q).1, ok_bind, ih]; rfl

theorem streamBytes_sysex {q : Packet} (h : IsSysex7 q) : streamBytes q =
    (if formatCode q ≤ 1 then [0xF0] else []) ++ payload7 q ++ (if formatCode q = 0 ∨ formatCode q = 3 then [0xF7] else []) := by
  unfold streamBytes
  rw [if_neg, if_pos h]
  have := h.1
  rintro (⟨e, _⟩ | ⟨e, _⟩) <;> omega

/-- The byte stream of the packets of one message. -/
theorem stream_framed (ps : List Packet) (h7 : ∀ q ∈ ps, IsSysex7 q) (hf : Framed (ps.map formatCode)) :
    (ps.map streamBytes).flatten = 0xF0 :: (ps.flatMap payload7 ++ [0xF7]) := by
  have rest : ∀ (n : Nat) (ps : List Packet), (∀ q ∈ ps, IsSysex7 q) → ps.map formatCode = List.replicate n 2 ++ [3] →
      (ps.map streamBytes).flatten = ps.flatMap payload7 ++ [0xF7] := by
    intro n
    induction n with
    | zero =>
      intro ps h7 h
      match ps, h7, h with
      | [q], h7, h =>
        have hq : formatCode q = 3 := by simpa using h
        simp only [List.map_cons, List.map_nil, List.flatten_cons, List.flatten_nil, List.append_nil]
        rw [streamBytes_sysex (h7 q (by simp)), hq]
        simp
      | [], _, h => simp at h
      | _ :: _ :: _, _, h => simp at h
    | succ n ih =>
      intro ps h7 h
      match ps, h7, h with
      | q :: ps, h7, h =>
        rw [List.map_cons, List.replicate_succ, List.cons_append, List.cons.injEq] at h
        rw [List.map_cons, List.flatten_cons, ih ps (fun q hq => h7 q (by simp [hq])) h.2,
          streamBytes_sysex (h7 q (by simp)), h.1]
        simp
  rcases hf with h | ⟨n, h⟩
  · match ps, h7, h with
    | [q], h7, h =>
      have hq : formatCode q = 0 := by simpa using h
      simp only [List.map_cons, List.map_nil, List.flatten_cons, List.flatten_nil, List.append_nil]
      rw [streamBytes_sysex (h7 q (by simp)), hq]
      simp
    | [], _, h => simp at h
    | _ :: _ :: _, _, h => simp at h
  · match ps, h7, h with
    | q :: ps, h7, h =>
      rw [List.map_cons, List.cons.injEq] at h
      rw [List.map_cons, List.flatten_cons, rest n ps (fun q hq => h7 q (by simp [hq])) h.2,
        streamBytes_sysex (h7 q (by simp)), h.1]
      simp

/-- C35: a sysex message with a genuine manufacturer id and 7 bit data, sent with `send_sysex7` in any group, converted to a
byte stream packet by packet, is the byte stream F0, manufacturer id, data, F7. Fed into a parser in callback mode, in any
state, this causes exactly one event, the original message. -/
theorem C35_chain_callback (m : Sysex) (g : Byte) (hm : Sendable7 (m, g)) (p : Parser) (hp : Reached p)
    (hcb : p.hasSysexCallback = true) (hon : p.invokeCallbacks = true) :
    ∃ ps bss p', sendSysex7 m g = .ok ps ∧ ps.mapM toMidi1ByteStream = .ok bss ∧
      bss.flatten = 0xF0 :: (idBytes7 m.manufacturerID ++ m.data ++ [0xF7]) ∧
      p.feedAll bss.flatten = .ok (p', [.sysex m]) := by
  obtain ⟨ps, h1, h2, h3, _, h5⟩ := C17_send_sysex7 m g hm.2.2 hm.1
  rw [map_and7F hm.2.1] at h5
  have hb : (ps.map streamBytes).flatten = 0xF0 :: (idBytes7 m.manufacturerID ++ m.data ++ [0xF7]) := by
    rw [stream_framed ps (fun q hq => (h2 q hq).1) h3, h5]
  have hnf : (idBytes7 m.manufacturerID ++ m.data).filter (fun b => decide (b < 0xF8)) =
      idBytes7 m.manufacturerID ++ m.data ∧ ∀ b ∈ idBytes7 m.manufacturerID ++ m.data, b < 0xF8 := by
    have hall : ∀ b ∈ idBytes7 m.manufacturerID ++ m.data, b < 0xF8 := by
      intro b hb
      have : b.toNat < 128 := by
        rcases List.mem_append.1 hb with hb | hb
        · exact idBytes7_lt (id := m.manufacturerID) hm.1 b hb
        · exact hm.2.1 b hb
      show b.toNat < 248
      omega
    exact ⟨List.filter_eq_self.2 fun b hb => by simpa using hall b hb, hall⟩
  obtain ⟨p', es, e, hes, _⟩ := C30_sysex_callback p hp hcb hon m hm.1 hm.2.1 _ hnf.1
  obtain ⟨q, qs, k1, _, k3⟩ := C27_realtime_transparent p hp (0xF0 :: (idBytes7 m.manufacturerID ++ m.data ++ [0xF7]))
  rw [k1] at e
  simp only [Except.ok.injEq, Prod.mk.injEq] at e
  obtain ⟨rfl, rfl⟩ := e
  have hnone : (0xF0 :: (idBytes7 m.manufacturerID ++ m.data ++ [0xF7])).filter
      (fun b => decide (b ≥ 0xF8 ∧ b ≠ 0xF9 ∧ b ≠ 0xFD)) = [] := by
    rw [List.filter_eq_nil_iff]
    intro b hb
    simp only [List.mem_cons, List.mem_append, List.not_mem_nil, or_false] at hb
    have hlt : b < 0xF8 := by
      rcases hb with rfl | hb | rfl
      · decide
      · exact hnf.2 b (List.mem_append.2 hb)
      · decide
    simp only [decide_eq_true_eq]
    exact fun h => absurd h.1 (BitVec.not_le.2 hlt)
  rw [hnone, List.map_nil, ite_self, List.filter_eq_nil_iff] at k3
  have : qs = [.sysex m] := by
    rw [← hes]
    exact (List.filter_eq_self.2 fun x hx => by simpa using k3 x hx).symm
  refine ⟨ps, _, q, h1, mapM_stream ps, hb, ?_⟩
  rw [hb, k1, this]

example := C35_chain_callback ⟨0x002109, [1, 2, 3, 4]⟩ 7 (by decide) (Parser.new 3 true true) (reached_new (by decide) _ _) rfl rfl

/-- The packets of `send_sysex7` are those of the parser if the last packet is not full. -/
theorem chunks_rest (n : Nat) : ∀ D : List Byte, D.length = n → n % 6 ≠ 0 → (∀ b ∈ D, b < 0x80) →
    chunks 6 (· &&& 0x7F) (if D.length ≤ 6 then .fin else .cont) [] D = restChunks D := by
  induction n using Nat.strongRecOn with
  | ind n ih =>
    intro D hn hm hD
    by_cases h : D.length < 6
    · rw [if_pos (by omega), restChunks_short h, chunks_one _ _ _ _ (by simp) (by simp; omega) (by simp; omega), map_and7F hD]
      rfl
    · rw [if_neg (by omega), restChunks_long h, chunks_more _ _ _ _ (by simp) (by simp; omega)]
      simp only [List.length_nil, Nat.sub_zero, List.nil_append]
      rw [ih (D.drop 6).length (by simp; omega) (D.drop 6) rfl (by simp; omega) (fun b hb => hD b (List.mem_of_mem_drop hb)),
        map_and7F (fun b hb => hD b (List.mem_of_mem_take hb))]

theorem chunks_shift {f : Format} {pl bs : List Byte} (hp : pl.length < 6) (h7 : ∀ b ∈ pl, b < 0x80)
    (hne : 0 < pl.length + bs.length) :
    chunks 6 (· &&& 0x7F) f pl bs = chunks 6 (· &&& 0x7F) f [] (pl ++ bs) := by
  by_cases h : pl.length + bs.length ≤ 6
  · rw [chunks_one _ _ _ _ hp hne h, chunks_one _ _ _ _ (by simp) (by simp; omega) (by simpa using h), List.map_append,
      map_and7F h7]; rfl
  · rw [chunks_more _ _ pl bs hp (by omega), chunks_more _ _ [] (pl ++ bs) (by simp) (by simp; omega)]
    have e1 : (pl ++ bs).drop 6 = bs.drop (6 - pl.length) := by
      rw [List.drop_append, List.drop_of_length_le (by omega)]; rfl
    have e2 : (pl ++ bs).take 6 = pl ++ bs.take (6 - pl.length) := by
      rw [List.take_append, List.take_of_length_le (by omega)]
    simp only [List.length_nil, Nat.sub_zero, List.nil_append, e1, e2, List.map_append, map_and7F h7]

/-- The number of chunks. -/
theorem chunks_length (n : Nat) : ∀ (f : Format) (D : List Byte), D.length = n → 0 < n →
    (chunks 6 (· &&& 0x7F) f [] D).length = (n + 5) / 6 := by
  induction n using Nat.strongRecOn with
  | ind n ih =>
    intro f D hn hpos
    by_cases h : D.length ≤ 6
    · rw [chunks_one _ _ _ _ (by simp) (by simp; omega) (by simpa using h)]
      simp; omega
    · rw [chunks_more _ _ _ _ (by simp) (by simp; omega)]
      simp only [List.length_nil, Nat.sub_zero, List.length_cons]
      rw [ih (D.drop 6).length (by simp; omega) _ (D.drop 6) rfl (by simp; omega), List.length_drop]
      omega

/-- C35: parsing the byte stream of a message in packet mode in the same group gives sysex packets with the same framing
rules and the same payload as the packets sent; they are the very same packets if and only if the number of payload bytes,
including the manufacturer id, is not a multiple of six. Otherwise the parser emits an additional end packet without payload
(and a start packet instead of a complete or end packet). -/
theorem C35_chain_packets (m : Sysex) (g : Byte) (hm : Sendable7 (m, g)) (p : Parser) (hp : Reached p)
    (hcb : p.hasSysexCallback = false) (hon : p.invokeCallbacks = true) (hg : p.group = g) :
    ∃ ps bss p' qs, sendSysex7 m g = .ok ps ∧ ps.mapM toMidi1ByteStream = .ok bss ∧
      p.feedAll bss.flatten = .ok (p', qs.map .packet) ∧ (∀ q ∈ qs, IsSysex7 q ∧ groupOf q = g.toNat) ∧
      Framed (qs.map formatCode) ∧ qs.flatMap payload7 = idBytes7 m.manufacturerID ++ m.data ∧
      (qs = ps ↔ ((idBytes7 m.manufacturerID).length + m.data.length) % 6 ≠ 0) := by
  obtain ⟨ps, h1, h2, h3, _, h5⟩ := C17_send_sysex7 m g hm.2.2 hm.1
  rw [map_and7F hm.2.1] at h5
  set D := idBytes7 m.manufacturerID ++ m.data with hDdef
  have hlen := idBytes7_length m.manufacturerID
  have hid : GenuineId m.manufacturerID := hm.1
  have hDl : D.length = (idBytes7 m.manufacturerID).length + m.data.length := by simp [hDdef]
  have hD : ∀ b ∈ D, b < 0x80 := by
    intro b hb
    rcases List.mem_append.1 hb with h | h
    · exact idBytes7_lt hm.1 b h
    · exact hm.2.1 b h
  have hD0 : D ≠ [] := by intro h; rw [h] at hDl; simp at hDl; omega
  have hb : (ps.map streamBytes).flatten = 0xF0 :: (D ++ [0xF7]) := by
    rw [stream_framed ps (fun q hq => (h2 q hq).1) h3, h5]
  obtain ⟨st, r, _⟩ := reached_rel hp
  obtain ⟨p', e, _⟩ := feedAll_rel (0xF0 :: (D ++ [0xF7])) r
  rw [sysex_packets _ hcb hon st D hD, if_neg hD0] at e
  obtain ⟨f1, f2, f3, f4, f5⟩ := parserChunks_facts D
  have hg16 : g < 16 := hm.2.2
  have hps : ps = (chunks 6 (· &&& 0x7F) (if m.totalDataSize ≤ 6 then .complete else .start) [] D).map
      fun c => mk7 c.1 g c.2 := by
    have := sendSysex7_eq m hm.2.2 hm.1
    rw [h1, chunks_shift (by omega) (idBytes7_lt hid) (by omega)] at this
    simpa using this
  have hT : m.totalDataSize = D.length := by rw [totalDataSize_genuine m hm.1, hDl]
  have hqs : (parserChunks D).map (chunkEvent p.group) = ((parserChunks D).map fun c => mk7 c.1 g c.2).map .packet := by
    rw [List.map_map]
    refine List.map_congr_left fun c hc => ?_
    simp only [Function.comp, chunkEvent, hg]
    rw [sysexPacket_eq _ hg16 (f4 c hc)]
  refine ⟨ps, _, p', (parserChunks D).map fun c => mk7 c.1 g c.2, h1, mapM_stream ps, ?_, ?_, ?_, ?_, ?_⟩
  · rw [hb, e, ← hqs]
  · intro q hq
    obtain ⟨c, hc, rfl⟩ := List.mem_map.1 hq
    exact ⟨isSysex7_mk7 _ hg16 (f4 c hc), groupOf_mk7 _ hg16⟩
  · have k : ((parserChunks D).map fun c => mk7 c.1 g c.2).map formatCode = (parserChunks D).map (·.1.code.toNat) := by
      rw [List.map_map]
      exact List.map_congr_left fun c hc => formatCode_mk7 _ _ (f4 c hc)
    rw [k]; exact f1
  · rw [List.flatMap_map]
    exact (flatMap_congr_mem fun c hc => payload7_mk7 _ _ (f4 c hc)).trans f2
  · rw [← hDl]
    constructor
    · intro hEq h0
      have := congrArg List.length hEq
      rw [hps, List.length_map, List.length_map, f5, chunks_length _ _ D rfl (by omega)] at this
      omega
    · intro h0
      rw [hps, hT]
      congr 1
      unfold parserChunks
      by_cases h : D.length < 6
      · rw [if_pos h, if_pos (by omega), chunks_one _ _ _ _ (by simp) (by simp; omega) (by simp; omega), map_and7F hD]; rfl
      · rw [if_neg h, if_neg (by omega), chunks_more _ _ _ _ (by simp) (by simp; omega)]
        simp only [List.length_nil, Nat.sub_zero, List.nil_append]
        rw [chunks_rest _ (D.drop 6) rfl (by simp; omega) (fun b hb => hD b (List.mem_of_mem_drop hb)),
          map_and7F (fun b hb => hD b (List.mem_of_mem_take hb))]

example := C35_chain_packets ⟨0x002109, [1, 2, 3, 4]⟩ 7 (by decide) (Parser.new 7 false true) (reached_new (by decide) _ _) rfl rfl rfl

/-- C35: a message with six payload bytes is sent in one complete packet, but parsed as a start and an end packet. -/
theorem C35_six_bytes_differ : ∃ p', sendSysex7 ⟨0x7E0000, [1, 2, 3, 4, 5]⟩ 0 = .ok [⟨0x30067E01, 0x02030405, 0, 0⟩] ∧
    toMidi1ByteStream ⟨0x30067E01, 0x02030405, 0, 0⟩ = .ok [0xF0, 0x7E, 1, 2, 3, 4, 5, 0xF7] ∧
    (Parser.new 0 false true).feedAll [0xF0, 0x7E, 1, 2, 3, 4, 5, 0xF7] =
      .ok (p', [.packet ⟨0x30167E01, 0x02030405, 0, 0⟩, .packet ⟨0x30300000, 0, 0, 0⟩]) := ⟨_, rfl, rfl, rfl⟩

/-- C35: the packets the parser emits in packet mode, in any group, fed into a collector with any history, are delivered as
the original message. -/
theorem C35_chain_collector (m : Sysex) (g : Byte) (hm : Sendable7 (m, g)) (p : Parser) (hp : Reached p)
    (hcb : p.hasSysexCallback = false) (hon : p.invokeCallbacks = true) (hist : List Packet) :
    ∃ ps bss p' es c before c', sendSysex7 m g = .ok ps ∧ ps.mapM toMidi1ByteStream = .ok bss ∧
      p.feedAll bss.flatten = .ok (p', es) ∧ ({} : Collector7).feedAll hist = .ok (c, before) ∧
      c.feedAll (packetsOf es) = .ok (c', [m]) := by
  obtain ⟨ps, h1, h2, h3, _, h5⟩ := C17_send_sysex7 m g hm.2.2 hm.1
  rw [map_and7F hm.2.1] at h5
  have hD : ∀ b ∈ idBytes7 m.manufacturerID ++ m.data, b < 0x80 := by
    intro b hb
    rcases List.mem_append.1 hb with h | h
    · exact idBytes7_lt hm.1 b h
    · exact hm.2.1 b h
  have hD0 : idBytes7 m.manufacturerID ++ m.data ≠ [] := by
    have := idBytes7_length m.manufacturerID
    intro h
    have h' := congrArg List.length h
    rw [List.length_append, List.length_nil] at h'
    omega
  have hb : (ps.map streamBytes).flatten = 0xF0 :: (idBytes7 m.manufacturerID ++ m.data ++ [0xF7]) := by
    rw [stream_framed ps (fun q hq => (h2 q hq).1) h3, h5]
  obtain ⟨st, r, _⟩ := reached_rel hp
  have hg16 : p.group < 16 := r.lt
  obtain ⟨p', e, _⟩ := feedAll_rel (0xF0 :: (idBytes7 m.manufacturerID ++ m.data ++ [0xF7])) r
  rw [sysex_packets _ hcb hon st _ hD, if_neg hD0] at e
  obtain ⟨f1, f2, f3, f4, f5⟩ := parserChunks_facts (idBytes7 m.manufacturerID ++ m.data)
  obtain ⟨qs, c1, c2, c3, c4, c5⟩ := chunk_events hg16 _ f4
  obtain ⟨c, k1, hrel⟩ := feedAll7_rel hist rel7_fresh
  obtain ⟨c', k2, _⟩ := feedAll7_rel qs hrel
  refine ⟨ps, _, p', _, c, _, c', h1, mapM_stream ps, by rw [hb]; exact e, k1, ?_⟩
  show c.feedAll (packetsOf ((parserChunks _).map (chunkEvent p.group))) = _
  rw [c1, packetsOf_map, k2, items7_all fun q hq => (c2 q hq).1]
  rw [absRun7_framed (absRun7_clean _ _ (Or.inr rfl)) _ (by rw [map_fst_items, c3]; exact f1) (fits_zero _), flatMap_snd_items,
    c4, f2]
  show Except.ok (c', [message7 _]) = _
  rw [message7_id _ hm.1]

/-- C35: the hypotheses are satisfied by messages with one and three byte ids. -/
example : Sendable7 (⟨0x7E0000, [0x06, 0x01]⟩, 3) ∧ Sendable7 (⟨0x002109, []⟩, 15) := by
  unfold Sendable7; decide

/-! ## C36 -/

/-- C36: for every byte stream, callback mode delivers the messages whose payloads have a complete manufacturer id, packet
mode together with a collector delivers all messages that are not empty. -/
theorem C36_both_modes (g : Byte) (hg : g < 16) (bs : List Byte) :
    ∃ p es q fs c, (Parser.new g true true).feedAll bs = .ok (p, es) ∧ (Parser.new g false true).feedAll bs = .ok (q, fs) ∧
      sysexOf es = ((sysexPayloads none bs).filter fun d => decide (HasId d)).map message7 ∧
      ({} : Collector7).feedAll (packetsOf fs) = .ok (c, ((sysexPayloads none bs).filter fun d => decide (d ≠ [])).map message7) := by
  obtain ⟨p, e, _⟩ := feedAll_rel bs (new_rel hg true true)
  obtain ⟨q, f, _⟩ := feedAll_rel bs (new_rel hg false true)
  obtain ⟨c, h, _⟩ := feedAll7_rel (packetsOf (stepBytes ⟨g, false, true⟩ .idle bs).2) rel7_fresh
  refine ⟨p, _, q, _, c, e, f, callback_payloads _ hg rfl rfl bs .idle (by simp), ?_⟩
  rw [h, packet_payloads _ hg rfl rfl bs .idle (false, []) (Or.inr rfl)]; rfl

example := C36_both_modes 3 (by decide) [0xF0, 0x7E, 1, 0xF7, 0xF0, 0, 0x21, 0xF7, 0x90, 60, 100]

/-- C36: for a byte stream in which all sysex messages have a complete manufacturer id, parsing in packet mode and feeding
the packets into a collector delivers the same messages as the sysex callback of a parser. -/
theorem C36_same_messages (g : Byte) (hg : g < 16) (bs : List Byte) (h : ∀ d ∈ sysexPayloads none bs, HasId d) :
    ∃ p es q fs c, (Parser.new g true true).feedAll bs = .ok (p, es) ∧ (Parser.new g false true).feedAll bs = .ok (q, fs) ∧
      ({} : Collector7).feedAll (packetsOf fs) = .ok (c, sysexOf es) := by
  obtain ⟨p, es, q, fs, c, h1, h2, h3, h4⟩ := C36_both_modes g hg bs
  refine ⟨p, es, q, fs, c, h1, h2, ?_⟩
  rw [h4, h3]
  congr 3
  refine List.filter_congr fun d hd => ?_
  have hi := h d hd
  rw [decide_eq_true hi]
  apply decide_eq_true
  rintro rfl
  revert hi; decide

/-- C36: this is different for a message with a truncated manufacturer id. -/
theorem C36_truncated_id_differs : ∃ p q c, (Parser.new 0 true true).feedAll [0xF0, 0x00, 0x20, 0xF7] = .ok (p, []) ∧
    (Parser.new 0 false true).feedAll [0xF0, 0x00, 0x20, 0xF7] = .ok (q, [.packet ⟨0x30020020, 0, 0, 0⟩]) ∧
    ({} : Collector7).feedAll [⟨0x30020020, 0, 0, 0⟩] = .ok (c, [⟨0x002000, []⟩]) := ⟨_, _, _, rfl, rfl, rfl⟩

/-- C36: a stream with an interrupted message, a real time byte, a program change message, and two complete messages. -/
example : sysexPayloads none [0xF0, 0x7E, 1, 2, 3, 4, 5, 6, 0xC0, 1, 0xF7, 0xF0, 0x41, 0xF8, 0x42, 0xF7, 0xF0, 0x7D, 0xF7] =
    [[0x41, 0x42], [0x7D]] ∧ HasId [0x41, 0x42] ∧ HasId [0x7D] := by decide

end Midi
