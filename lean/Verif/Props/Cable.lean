import Verif.Lemmas.Cable

/-!
# C86: MIDI 1 traffic survives a cable

Packets of any kind, in any order, converted with `to_midi1_byte_stream` and parsed by a `midi1_byte_stream_parser`.
-/

namespace Midi
open Spec

/-! ## Helper lemmas -/

theorem cable_begin (c : Settings) (hon : c.enabled = true) (n : Nat) (held : List Byte) (st : StreamState)
    (h : 2 ≤ n → ∃ g, st = .sysex g true held) :
    ∃ g, stepBytes c st (if n ≤ 1 then [0xF0] else []) = (.sysex g true (if n ≤ 1 then [] else held), []) ∧
      (n ≤ 1 → g = c.group) ∧ (2 ≤ n → st = .sysex g true held) := by
  by_cases hn : n ≤ 1
  · rw [if_pos hn, if_pos hn]
    refine ⟨c.group, ?_, fun _ => rfl, fun h => absurd hn (by omega)⟩
    rw [stepBytes_cons, step_start, hon]; rfl
  · rw [if_neg hn, if_neg hn]
    obtain ⟨g, rfl⟩ := h (by omega)
    exact ⟨g, rfl, fun h => absurd h hn, fun _ => rfl⟩

theorem callback_cable (c : Settings) (hc : c.group < 16) (hcb : c.sysexCallback = true) (hon : c.enabled = true)
    (qs : List Packet) : ∀ (running : Bool) (held : List Byte) (st : StreamState),
    (running = true → ∃ g, st = .sysex g true held) → (∀ q ∈ qs, WellFormed1 [c.group] q) → NoOrphans running qs →
    (stepBytes c st (qs.map streamBytes).flatten).2 = ((itemsOf held qs).filter Item.hasId).map Item.event := by
  induction qs with
  | nil => intro r held st _ _ _; rfl
  | cons q qs ih =>
    intro r held st hst hw ho
    have hwq := hw q (by simp)
    have hwr : ∀ q ∈ qs, WellFormed1 [c.group] q := fun x hx => hw x (by simp [hx])
    unfold NoOrphans at ho
    unfold itemsOf
    rw [List.map_cons, List.flatten_cons, stepBytes_append]
    dsimp only
    by_cases h7 : IsSysex7 q
    · rw [if_pos h7] at ho ⊢
      have hd := payload_lt hwq h7
      obtain ⟨g, hb, _, _⟩ := cable_begin c hon (formatCode q) held st (fun h => hst (ho.1 h))
      rw [streamBytes_sysex h7, stepBytes_append, stepBytes_append, hb]
      dsimp only
      rw [sysex_data_cb c hcb g true _ _ hd]
      dsimp only
      by_cases hf : formatCode q = 0 ∨ formatCode q = 3
      · rw [if_pos hf, if_pos hf, stepBytes_cons, step_end_cb c _ _ _ hcb, if_pos hon]
        have hr : decide (formatCode q = 1 ∨ formatCode q = 2) = false := by simp; omega
        rw [hr] at ho
        rw [show (stepBytes c StreamState.idle []).1 = .idle from rfl, show (stepBytes c StreamState.idle []).2 = [] from rfl,
          ih false [] .idle (by simp) hwr ho.2]
        simp only [true_and, List.filter_cons, List.append_nil, List.nil_append]
        generalize (if formatCode q ≤ 1 then [] else held) ++ payload7 q = pl
        by_cases hi : HasId pl
        · rw [if_pos hi, if_pos (show Item.hasId (.sysex pl) = true from decide_eq_true hi)]; rfl
        · rw [if_neg hi, if_neg (show ¬ Item.hasId (.sysex pl) = true by simpa [Item.hasId] using hi)]; rfl
      · rw [if_neg hf, if_neg hf]
        have h3 : formatCode q ≤ 3 := h7.2.1
        have hr : decide (formatCode q = 1 ∨ formatCode q = 2) = true := by simp; omega
        rw [hr] at ho
        exact ih true _ _ (fun _ => ⟨g, rfl⟩) hwr ho.2
    · rw [if_neg h7] at ho ⊢
      have hs : IsShort q := hwq.kind.resolve_right h7
      rw [cable_short hc c rfl hon st hwq hs]
      by_cases hr : IsRealTimePacket q
      · rw [if_pos hr]
        rw [decide_eq_true hr, Bool.and_true] at ho
        rw [cable_realtime hc c rfl hon st hwq hr, ih r held st hst hwr ho]; rfl
      · rw [if_neg hr]
        rw [decide_eq_false hr, Bool.and_false] at ho
        rw [ih false [] _ (by simp) hwr ho]; rfl

theorem packet_cable (c : Settings) (hc : c.group < 16) (hcb : c.sysexCallback = false) (hon : c.enabled = true)
    (qs : List Packet) : ∀ (running : Bool) (held : List Byte) (st : StreamState) (a : Bool × List Byte),
    (a.1 = true ∨ a.2 = []) → (running = true → (∃ g, st = .sysex g true held) ∧ CollRel st a) →
    (∀ q ∈ qs, WellFormed1 [c.group] q) → NoOrphans running qs →
    (recv a (packetsOf (stepBytes c st (qs.map streamBytes).flatten).2)).2 = (itemsOf held qs).filter Item.nonEmpty := by
  induction qs with
  | nil => intro r held st a _ _ _ _; rfl
  | cons q qs ih =>
    intro r held st a hcl hst hw ho
    have hwq := hw q (by simp)
    have hwr : ∀ q ∈ qs, WellFormed1 [c.group] q := fun x hx => hw x (by simp [hx])
    unfold NoOrphans at ho
    unfold itemsOf
    rw [List.map_cons, List.flatten_cons, stepBytes_append]
    dsimp only
    rw [packetsOf_append, recv_append]
    dsimp only
    by_cases h7 : IsSysex7 q
    · rw [if_pos h7] at ho ⊢
      have hd := payload_lt hwq h7
      obtain ⟨g, hb, hb1, hb2⟩ := cable_begin c hon (formatCode q) held st (fun h => (hst (ho.1 h)).1)
      have hrel : CollRel (.sysex g true (if formatCode q ≤ 1 then [] else held)) a := by
        by_cases hn : formatCode q ≤ 1
        · rw [if_pos hn]; exact ⟨hb1 hn ▸ hc, by rw [if_pos (by simp)]; exact hcl⟩
        · rw [if_neg hn, ← hb2 (by omega)]; exact (hst (ho.1 (by omega))).2
      obtain ⟨g', a', d1, d2, d3⟩ := cable_data c hc hcb hon (payload7 q) g _ a hd hrel
      have hpre : (stepBytes c st ((if formatCode q ≤ 1 then [0xF0] else []) ++ payload7 q)).1 =
            .sysex g' true ((if formatCode q ≤ 1 then [] else held) ++ payload7 q) ∧
          recv a (packetsOf (stepBytes c st ((if formatCode q ≤ 1 then [0xF0] else []) ++ payload7 q)).2) = (a', []) := by
        rw [stepBytes_append, hb]
        exact ⟨d1, d2⟩
      rw [streamBytes_sysex h7, stepBytes_append]
      dsimp only
      rw [packetsOf_append, recv_append, hpre.1, hpre.2]
      dsimp only
      by_cases hf : formatCode q = 0 ∨ formatCode q = 3
      · rw [if_pos hf, if_pos hf, stepBytes_cons]
        obtain ⟨a'', e1, e2, e3⟩ := cable_end c hcb hon g' _ a' d3
        have hr : decide (formatCode q = 1 ∨ formatCode q = 2) = false := by simp; omega
        rw [hr] at ho
        rw [e1]
        rw [show (stepBytes c StreamState.idle []).1 = .idle from rfl, show (stepBytes c StreamState.idle []).2 = [] from rfl,
          List.append_nil, e2]
        dsimp only
        rw [ih false [] .idle a'' e3 (by simp) hwr ho.2]
        simp only [List.filter_cons, List.nil_append]
        generalize (if formatCode q ≤ 1 then [] else held) ++ payload7 q = pl
        by_cases hi : pl = []
        · rw [if_pos hi, if_neg (show ¬ Item.nonEmpty (.sysex pl) = true by simpa [Item.nonEmpty] using hi)]; rfl
        · rw [if_neg hi, if_pos (show Item.nonEmpty (.sysex pl) = true from decide_eq_true hi)]; rfl
      · rw [if_neg hf, if_neg hf]
        have h3 : formatCode q ≤ 3 := h7.2.1
        have hr : decide (formatCode q = 1 ∨ formatCode q = 2) = true := by simp; omega
        rw [hr] at ho
        exact ih true _ _ a' (collRel_clean d3) (fun _ => ⟨⟨g', rfl⟩, d3⟩) hwr ho.2
    · rw [if_neg h7] at ho ⊢
      have hs : IsShort q := hwq.kind.resolve_right h7
      rw [cable_short hc c rfl hon st hwq hs, packetsOf_one, recv_short h7]
      dsimp only
      by_cases hr : IsRealTimePacket q
      · rw [if_pos hr]
        rw [decide_eq_true hr, Bool.and_true] at ho
        rw [cable_realtime hc c rfl hon st hwq hr, ih r held st a hcl hst hwr ho]; rfl
      · rw [if_neg hr]
        rw [decide_eq_false hr, Bool.and_false] at ho
        rw [ih false [] _ a hcl (by simp) hwr ho]; rfl

theorem uninterrupted_noOrphans (qs : List Packet) : ∀ r, Uninterrupted r qs → NoOrphans r qs := by
  induction qs with
  | nil => intro r _; trivial
  | cons q qs ih =>
    intro r h
    unfold Uninterrupted at h
    unfold NoOrphans
    by_cases h7 : IsSysex7 q
    · rw [if_pos h7] at h ⊢; exact ⟨h.1.1, ih _ h.2⟩
    · rw [if_neg h7] at h ⊢
      cases r
      · exact ih _ h.2
      · rw [decide_eq_true (h.1 rfl)]; exact ih _ h.2

theorem abs7_whole {n : Nat} (h3 : n ≤ 3) (pl held : List Byte) (a : Bool × List Byte) (h1 : n ≤ 1 → a.1 = true ∨ a.2 = [])
    (h2 : 2 ≤ n → a = (true, held)) : abs7 0 a (n, pl) = if n = 0 ∨ n = 3 then
      ((false, []), [(if n ≤ 1 then [] else held) ++ pl]) else ((true, (if n ≤ 1 then [] else held) ++ pl), []) := by
  unfold abs7
  dsimp only
  by_cases hn : n ≤ 1
  · have hb : (if a.1 then [] else a.2) = ([] : List Byte) := by
      rcases h1 hn with h | h
      · rw [h]; rfl
      · rw [h]; simp
    rw [if_pos hn, if_pos hn, if_pos (fits_zero _), hb]
    have : (n = 0 ∨ n = 3) ↔ n = 0 := by omega
    simp only [this]
  · rw [if_neg hn, if_neg hn, h2 (by omega), if_pos rfl, if_pos (fits_zero _)]
    have : (n = 0 ∨ n = 3) ↔ n = 3 := by omega
    simp only [this]

theorem direct_items (qs : List Packet) : ∀ (r : Bool) (held : List Byte) (a : Bool × List Byte),
    (if r then a = (true, held) else a.1 = true ∨ a.2 = []) → Uninterrupted r qs → (recv a qs).2 = itemsOf held qs := by
  induction qs with
  | nil => intro r held a _ _; rfl
  | cons q qs ih =>
    intro r held a ha hu
    unfold Uninterrupted at hu
    unfold recv itemsOf
    by_cases h7 : IsSysex7 q
    · rw [if_pos h7] at hu ⊢
      rw [if_pos h7]
      have h3 : formatCode q ≤ 3 := h7.2.1
      dsimp only
      have key : abs7 0 a (formatCode q, payload7 q) = if formatCode q = 0 ∨ formatCode q = 3 then
          ((false, []), [(if formatCode q ≤ 1 then [] else held) ++ payload7 q])
          else ((true, (if formatCode q ≤ 1 then [] else held) ++ payload7 q), []) := by
        refine abs7_whole h3 (payload7 q) held a ?_ ?_
        · intro _
          cases r
          · simpa using ha
          · left; simp only [if_true] at ha; rw [ha]
        · intro hn
          have hr : r = true := hu.1.1 hn
          rw [hr] at ha
          simpa using ha
      rw [key]
      by_cases hf : formatCode q = 0 ∨ formatCode q = 3
      · have hr : decide (formatCode q = 1 ∨ formatCode q = 2) = false := by simp; omega
        rw [hr] at hu
        rw [if_pos hf, if_pos hf]
        dsimp only
        rw [ih false [] (false, []) (by simp) hu.2]; rfl
      · have hr : decide (formatCode q = 1 ∨ formatCode q = 2) = true := by simp; omega
        rw [hr] at hu
        rw [if_neg hf, if_neg hf]
        dsimp only
        exact ih true _ _ (by rw [if_pos rfl]) hu.2
    · rw [if_neg h7] at hu ⊢
      rw [if_neg h7]
      dsimp only
      rw [ih r (if IsRealTimePacket q then held else []) a ?_ hu.2]
      cases r
      · exact ha
      · rw [if_pos (hu.1 rfl)]; exact ha

/-! ## C86 -/

/-- C86: any traffic of a group (system and channel voice messages, sysex packets of any size; interrupted sysex messages too)
over a MIDI 1 cable into a parser with sysex callback, whatever this parser has seen before: short messages arrive as they
were, and each finished sysex message with a manufacturer id arrives as a whole, all in order and nothing else. -/
theorem C86_cable_callback (p : Parser) (hp : Reached p) (hon : p.invokeCallbacks = true) (hcb : p.hasSysexCallback = true)
    (qs : List Packet) (hw : ∀ q ∈ qs, WellFormed1 [p.group] q) (ho : NoOrphans false qs) :
    ∃ bss p', qs.mapM toMidi1ByteStream = .ok bss ∧
      p.feedAll bss.flatten = .ok (p', ((itemsOf [] qs).filter Item.hasId).map Item.event) := by
  obtain ⟨st, r, _⟩ := reached_rel hp
  obtain ⟨p', e, _⟩ := feedAll_rel (qs.map streamBytes).flatten r
  exact ⟨_, p', mapM_stream qs, by rw [e, callback_cable _ r.lt hcb hon qs false [] st (by simp) hw ho]⟩

example := C86_cable_callback (Parser.new 1 true true) (reached_new (by decide) _ _) rfl rfl
  [⟨0x31160102, 0x03040506, 0, 0⟩, ⟨0x11F80000, 0, 0, 0⟩, ⟨0x31320708, 0, 0, 0⟩, ⟨0x21903C64, 0, 0, 0⟩] (by
    intro q hq
    simp only [List.mem_cons, List.not_mem_nil, or_false] at hq
    rcases hq with rfl | rfl | rfl | rfl <;> exact ⟨by decide, by decide, by decide, by decide⟩) (by decide)

/-- C86: into a parser without sysex callback, whose packets go to an application with a collector (parser and collector may
have seen anything before): the same, and here every sysex message that is not empty arrives. -/
theorem C86_cable_packets (p : Parser) (hp : Reached p) (hon : p.invokeCallbacks = true) (hcb : p.hasSysexCallback = false)
    (hist qs : List Packet) (hw : ∀ q ∈ qs, WellFormed1 [p.group] q) (ho : NoOrphans false qs) :
    ∃ bss p' es c ms, qs.mapM toMidi1ByteStream = .ok bss ∧ p.feedAll bss.flatten = .ok (p', es) ∧
      ({} : Collector7).feedAll hist = .ok (c, ms) ∧
      receive c (packetsOf es) = .ok (((itemsOf [] qs).filter Item.nonEmpty).map Item.event) := by
  obtain ⟨st, r, _⟩ := reached_rel hp
  obtain ⟨p', e, _⟩ := feedAll_rel (qs.map streamBytes).flatten r
  obtain ⟨c, k1, hrel⟩ := feedAll7_rel hist rel7_fresh
  refine ⟨_, p', _, c, _, mapM_stream qs, e, k1, ?_⟩
  rw [receive_rel _ hrel, packet_cable _ r.lt hcb hon qs false [] st _ (absRun7_clean _ _ (Or.inr rfl)) (by simp) hw ho]

example := C86_cable_packets (Parser.new 1 false true) (reached_new (by decide) _ _) rfl rfl [⟨0x31160102, 0, 0, 0⟩]
  [⟨0x31160102, 0x03040506, 0, 0⟩, ⟨0x11F80000, 0, 0, 0⟩, ⟨0x31320708, 0, 0, 0⟩, ⟨0x21903C64, 0, 0, 0⟩] (by
    intro q hq
    simp only [List.mem_cons, List.not_mem_nil, or_false] at hq
    rcases hq with rfl | rfl | rfl | rfl <;> exact ⟨by decide, by decide, by decide, by decide⟩) (by decide)

/-- C86: an application that gets the packets directly sees all items, if sysex messages are not interrupted. -/
theorem C86_direct (hist qs : List Packet) (hu : Uninterrupted false qs) :
    ∃ c ms, ({} : Collector7).feedAll hist = .ok (c, ms) ∧ receive c qs = .ok ((itemsOf [] qs).map Item.event) := by
  obtain ⟨c, k1, hrel⟩ := feedAll7_rel hist rel7_fresh
  refine ⟨c, _, k1, ?_⟩
  have hcl := absRun7_clean (items7 hist) (false, []) (Or.inr rfl)
  rw [receive_rel _ hrel, direct_items qs false [] _ (by simpa using hcl) hu]

/-- C86: a cable makes no difference. If sysex messages are not interrupted by other than real time messages and have a
complete manufacturer id, then a receiver at the end of a MIDI 1 cable, with a parser in either mode, sees exactly the same
messages in the same order as a receiver that gets the packets themselves. -/
theorem C86_cable_transparent (g : Byte) (hg : g < 16) (qs : List Packet) (hw : ∀ q ∈ qs, WellFormed1 [g] q)
    (hu : Uninterrupted false qs) (hid : ∀ d, .sysex d ∈ itemsOf [] qs → HasId d) :
    ∃ es bss p p' ps, receive {} qs = .ok es ∧ qs.mapM toMidi1ByteStream = .ok bss ∧
      (Parser.new g true true).feedAll bss.flatten = .ok (p, es) ∧
      (Parser.new g false true).feedAll bss.flatten = .ok (p', ps) ∧ receive {} (packetsOf ps) = .ok es := by
  have ho := uninterrupted_noOrphans qs false hu
  have r1 := new_rel hg true true
  have r2 := new_rel hg false true
  obtain ⟨p, e1, _⟩ := feedAll_rel (qs.map streamBytes).flatten r1
  obtain ⟨p', e2, _⟩ := feedAll_rel (qs.map streamBytes).flatten r2
  refine ⟨(itemsOf [] qs).map Item.event, _, p, p', _, ?_, mapM_stream qs, ?_, e2, ?_⟩
  · rw [receive_rel _ rel7_fresh, direct_items qs false [] _ (by simp) hu]
  · rw [e1, callback_cable _ hg rfl rfl qs false [] _ (by simp) hw ho]
    have : (itemsOf [] qs).filter Item.hasId = itemsOf [] qs := by
      rw [List.filter_eq_self]
      intro i hi
      match i, hi with
      | .short q, _ => rfl
      | .sysex d, hi => exact decide_eq_true (hid d hi)
    rw [this]
  · rw [receive_rel _ rel7_fresh, packet_cable _ hg rfl rfl qs false [] _ _ (Or.inr rfl) (by simp) hw ho]
    have : (itemsOf [] qs).filter Item.nonEmpty = itemsOf [] qs := by
      rw [List.filter_eq_self]
      intro i hi
      match i, hi with
      | .short q, _ => rfl
      | .sysex d, hi =>
        have hi := hid d hi
        refine decide_eq_true ?_
        rintro rfl
        revert hi; decide
    rw [this]

/-- C86: traffic of group 2: a note, a start packet, a clock, an end packet, a program change. It satisfies the hypotheses. -/
example : let qs : List Packet := [⟨0x22904C7F, 0, 0, 0⟩, ⟨0x32167E01, 0x02030405, 0, 0⟩, ⟨0x12F80000, 0, 0, 0⟩,
      ⟨0x32320607, 0, 0, 0⟩, ⟨0x22C14400, 0, 0, 0⟩]
    (∀ q ∈ qs, WellFormed1 [2] q) ∧ Uninterrupted false qs ∧ NoOrphans false qs ∧
    itemsOf [] qs = [.short ⟨0x22904C7F, 0, 0, 0⟩, .short ⟨0x12F80000, 0, 0, 0⟩, .sysex [0x7E, 1, 2, 3, 4, 5, 6, 7],
      .short ⟨0x22C14400, 0, 0, 0⟩] ∧ HasId [0x7E, 1, 2, 3, 4, 5, 6, 7] := by
  refine ⟨?_, by decide +kernel, by decide +kernel, by decide +kernel, by decide⟩
  intro q hq
  simp only [List.mem_cons, List.not_mem_nil, or_false] at hq
  rcases hq with rfl | rfl | rfl | rfl | rfl <;>
  exact ⟨by decide, by decide, by decide, by decide⟩

/-- C86: the difference a cable makes for an interrupted message. The note packet between start and end packet is ignored by the
collector of a direct receiver, which delivers the sysex message; at the end of a cable the message is lost. -/
theorem C86_interrupted_differs : ∃ p, receive {} [⟨0x30127E01, 0, 0, 0⟩, ⟨0x20904C7F, 0, 0, 0⟩, ⟨0x30310200, 0, 0, 0⟩] =
      .ok [.packet ⟨0x20904C7F, 0, 0, 0⟩, .sysex ⟨0x7E0000, [1, 2]⟩] ∧
    [⟨0x30127E01, 0, 0, 0⟩, ⟨0x20904C7F, 0, 0, 0⟩, ⟨0x30310200, 0, 0, 0⟩].mapM toMidi1ByteStream =
      .ok [[0xF0, 0x7E, 1], [0x90, 0x4C, 0x7F], [2, 0xF7]] ∧
    (Parser.new 0 true true).feedAll [0xF0, 0x7E, 1, 0x90, 0x4C, 0x7F, 2, 0xF7] =
      .ok (p, [.packet ⟨0x20904C7F, 0, 0, 0⟩]) := ⟨_, rfl, rfl, rfl⟩

/-- C86: why orphaned packets are excluded. The payload of a continue or end packet without start packet is sent without F0, and
the parser takes it for data of the last channel voice message: the note on message arrives twice more, with other notes. A
direct receiver ignores the packets. -/
theorem C86_orphan_differs : ∃ p, receive {} [⟨0x20904C7F, 0, 0, 0⟩, ⟨0x30240102, 0x03040000, 0, 0⟩] =
      .ok [.packet ⟨0x20904C7F, 0, 0, 0⟩] ∧
    [⟨0x20904C7F, 0, 0, 0⟩, ⟨0x30240102, 0x03040000, 0, 0⟩].mapM toMidi1ByteStream =
      .ok [[0x90, 0x4C, 0x7F], [1, 2, 3, 4]] ∧
    (Parser.new 0 true true).feedAll [0x90, 0x4C, 0x7F, 1, 2, 3, 4] = .ok (p, [.packet ⟨0x20904C7F, 0, 0, 0⟩,
      .packet ⟨0x20900102, 0, 0, 0⟩, .packet ⟨0x20900304, 0, 0, 0⟩]) := ⟨_, rfl, rfl, rfl⟩

end Midi
