import Verif.Spec.Wire
import Verif.Props.TextWords
import Verif.Props.Interchange
import Verif.Props.Collector7
import Verif.Props.Collector8

/-!
# C115: packets sent as bytes
-/

namespace Midi
open Spec

/-! ## Helper lemmas -/

/-- The bytes of a packet. -/
def Packet.wire (p : Packet) : List Byte := (List.range (4 * p.size)).map p.byteAt

theorem sendBytes_eq (p : Packet) : sendBytes p = .ok p.wire := by
  have h := p.size_bounds
  have : ∀ l : List Nat, (∀ b ∈ l, b < 16) → l.mapM p.getByte = .ok (l.map p.byteAt) := by
    intro l
    induction l with
    | nil => intro _; rfl
    | cons b l ih =>
      intro hl
      rw [List.mapM_cons, Packet.getByte_lt _ (hl b (by simp)), ok_bind, ih fun x hx => hl x (by simp [hx])]; rfl
  exact this _ fun b hb => by have := List.mem_range.1 hb; omega

theorem sendBytes_all (ps : List Packet) : ps.mapM sendBytes = .ok (ps.map Packet.wire) := by
  induction ps with
  | nil => rfl
  | cons p ps ih => rw [List.mapM_cons, sendBytes_eq, ok_bind, ih]; rfl

theorem size_of_byte (p : Packet) : p.size = wordsOfType ((p.byteAt 0).toNat / 16) := by
  have h : ∀ t, t < 16 → Packet.sizeLookup.getD t 0 = Spec.wordsOfType t := by decide
  have ht : p.type.toNat = (p.byteAt 0).toNat / 16 := by
    rw [Packet.type_eq, BitVec.toNat_ushiftRight, Nat.shiftRight_eq_div_pow]
  rw [← ht, ← h _ p.type_lt]; rfl

/-- What a receiver remembers: the bytes `rest` of a message that is not complete. -/
structure Reads (r : PacketReader) (rest : List Byte) : Prop where
  count : r.count = rest.length
  unfinished : LacksBytes rest
  bytes : rest ≠ [] → ∀ i, i < 16 → r.packet.byteAt i = rest.getD i 0

theorem lacksBytes_nil : LacksBytes [] := fun _ _ h => (List.cons_ne_nil _ _ h.symm).elim

theorem Reads.short {r : PacketReader} {rest : List Byte} (h : Reads r rest) : rest.length < 16 := by
  cases rest with
  | nil => simp
  | cons b t =>
    have h1 := h.unfinished b t rfl
    have : ∀ n, wordsOfType n ≤ 4 := by intro n; unfold wordsOfType; (repeat' split) <;> omega
    have := this (b.toNat / 16)
    omega

theorem read_step {r : PacketReader} {rest : List Byte} (h : Reads r rest) (b : Byte) :
    (∃ r', r.read b = .ok (r', []) ∧ Reads r' (rest ++ [b])) ∨
    ∃ r' q, r.read b = .ok (r', [q]) ∧ Reads r' [] ∧ q.wire = rest ++ [b] ∧ ∀ i, 4 * q.size ≤ i → i < 16 → q.byteAt i = 0 := by
  have hs := h.short
  obtain ⟨p, hp, hb⟩ : ∃ p, (if r.count = 0 then r.packet.reset else r.packet).setByte r.count b = .ok p ∧
      ∀ i, i < 16 → p.byteAt i = (rest ++ [b]).getD i 0 := by
    rw [Packet.setByte_lt _ (by rw [h.count]; exact hs)]
    refine ⟨_, rfl, fun i hi => ?_⟩
    rw [Packet.byteAt_putByte _ (by rw [h.count]; exact hs) hi, h.count]
    by_cases e : i = rest.length
    · subst e; simp
    · rw [if_neg e]
      cases rest with
      | nil =>
        rw [if_pos List.length_nil]
        have : i ≠ 0 := e
        obtain ⟨i, rfl⟩ := Nat.exists_eq_succ_of_ne_zero this
        have : (Packet.reset r.packet).byteAt (i + 1) = 0 := by
          unfold Packet.byteAt Packet.reset
          have : ∀ k, (⟨0, 0, 0, 0⟩ : Packet).word k = 0 := by intro k; unfold Packet.word; split <;> rfl
          rw [this]; simp
        simpa using this
      | cons c t =>
        rw [if_neg (by simp), h.bytes (by simp) i hi]
        by_cases l : i < (c :: t).length
        · simp only [List.getD_eq_getElem?_getD]; rw [List.getElem?_append_left l]
        · simp only [List.getD_eq_getElem?_getD]
          rw [List.getElem?_eq_none (by omega), List.getElem?_eq_none (by simp at l e ⊢; omega)]
  have hsz := p.size_bounds
  unfold PacketReader.read
  simp only [hp, ok_bind]
  by_cases e : r.count + 1 = 4 * p.size
  · right
    rw [if_pos e]
    refine ⟨_, _, rfl, ⟨rfl, lacksBytes_nil, fun h => absurd rfl h⟩, ?_, fun i h1 h2 => ?_⟩
    · apply List.ext_getElem
      · simp [Packet.wire, ← e, h.count]
      · intro i h1 h2
        have : i < 16 := by simp [Packet.wire] at h1; omega
        simp only [Packet.wire, List.getElem_map, List.getElem_range]
        rw [hb i this, List.getD_eq_getElem?_getD, List.getElem?_eq_getElem h2]; rfl
    · rw [hb i h2, List.getD_eq_getElem?_getD, List.getElem?_eq_none (by simp; rw [← h.count]; omega)]; rfl
  · left
    rw [if_neg e]
    refine ⟨_, rfl, ⟨by simp [h.count], ?_, fun _ => hb⟩⟩
    intro c t ht
    have h0 : p.byteAt 0 = c := by rw [hb 0 (by omega), ht]; rfl
    have h1 := size_of_byte p
    rw [h0] at h1
    rw [← h1]
    have : (rest ++ [b]).length = r.count + 1 := by simp [h.count]
    cases rest with
    | nil => simp at this ⊢; omega
    | cons c' t' =>
      have := h.unfinished c' t' rfl
      have e2 : c' = c := by have := congrArg List.head? ht; simpa using this
      rw [e2, ← h1] at this
      have e3 := h.count
      simp only [List.length_append, List.length_cons, List.length_nil] at *
      omega

theorem read_all (bs : List Byte) : ∀ {r : PacketReader} {rest : List Byte}, Reads r rest →
    ∃ r' qs rest', r.readAll bs = .ok (r', qs) ∧ Reads r' rest' ∧ rest ++ bs = (qs.map Packet.wire).flatten ++ rest' ∧
      ∀ q ∈ qs, ∀ i, 4 * q.size ≤ i → i < 16 → q.byteAt i = 0 := by
  induction bs with
  | nil => intro r rest h; exact ⟨r, [], rest, rfl, h, by simp, by simp⟩
  | cons b bs ih =>
    intro r rest h
    rcases read_step h b with ⟨r1, e1, h1⟩ | ⟨r1, q, e1, h1, hq, hz⟩
    · obtain ⟨r', qs, rest', e2, h2, h3, h4⟩ := ih h1
      refine ⟨r', qs, rest', ?_, h2, by rw [← h3]; simp, h4⟩
      rw [PacketReader.readAll, e1, ok_bind]
      dsimp only
      rw [e2]; rfl
    · obtain ⟨r', qs, rest', e2, h2, h3, h4⟩ := ih h1
      refine ⟨r', q :: qs, rest', ?_, h2, ?_, ?_⟩
      · rw [PacketReader.readAll, e1, ok_bind]
        dsimp only
        rw [e2]; rfl
      · rw [List.map_cons, List.flatten_cons, hq, List.append_assoc, ← h3]; simp
      · intro x hx
        rcases List.mem_cons.1 hx with rfl | hx
        · exact hz
        · exact h4 x hx

theorem read_append (a b : List Byte) : ∀ {r r1 r2 : PacketReader} {q1 q2 : List Packet}, r.readAll a = .ok (r1, q1) →
    r1.readAll b = .ok (r2, q2) → r.readAll (a ++ b) = .ok (r2, q1 ++ q2) := by
  induction a with
  | nil => intro r r1 r2 q1 q2 h1 h2; cases h1; exact h2
  | cons x a ih =>
    intro r r1 r2 q1 q2 h1 h2
    rw [PacketReader.readAll] at h1
    rw [List.cons_append, PacketReader.readAll]
    cases hx : r.read x with
    | error f => rw [hx] at h1; cases h1
    | ok v =>
      obtain ⟨r3, q3⟩ := v
      rw [hx, ok_bind] at h1
      dsimp only at h1
      cases hy : r3.readAll a with
      | error f => rw [hy] at h1; cases h1
      | ok w =>
        obtain ⟨r4, q4⟩ := w
        rw [hy, ok_bind] at h1
        cases h1
        rw [ok_bind]
        dsimp only
        rw [ih hy h2, ok_bind, List.append_assoc]; rfl

theorem wire_head (p : Packet) : ∃ t, p.wire = p.byteAt 0 :: t := by
  have := p.size_bounds
  obtain ⟨n, hn⟩ : ∃ n, 4 * p.size = n + 1 := ⟨4 * p.size - 1, by omega⟩
  exact ⟨_, by rw [Packet.wire, hn, List.range_succ_eq_map, List.map_cons]⟩

theorem wire_length (p : Packet) : p.wire.length = 4 * p.size := by simp [Packet.wire]

theorem wire_eqv {p q : Packet} : p.wire = q.wire ↔ p.eqv q = true := by
  constructor
  · intro h
    have hs : p.size = q.size := by have := congrArg List.length h; rw [wire_length, wire_length] at this; omega
    rw [Packet.eqv_iff]
    intro i hi
    have hb : ∀ k, k < 4 → byteOf (p.word i) k = byteOf (q.word i) k := by
      intro k hk
      have h1 : (4 * i + k) < p.wire.length := by rw [wire_length]; omega
      have h2 : (4 * i + k) < q.wire.length := by rw [← h]; exact h1
      have : p.wire[4 * i + k] = q.wire[4 * i + k] := by simp only [h]
      simp only [Packet.wire, List.getElem_map, List.getElem_range, Packet.byteAt_eq] at this
      rwa [show (4 * i + k) / 4 = i by omega, show (4 * i + k) % 4 = k by omega] at this
    exact word_ext (hb 0 (by omega)) (hb 1 (by omega)) (hb 2 (by omega)) (hb 3 (by omega))
  · intro h
    have hs := ((C03_eq_iff p q).1 h).1
    rw [Packet.eqv_iff] at h
    unfold Packet.wire
    rw [← hs]
    apply List.map_congr_left
    intro i hi
    have hi := List.mem_range.1 hi
    rw [Packet.byteAt_eq, Packet.byteAt_eq, h (i / 4) (by omega)]

/-- Packets are determined by their bytes. -/
theorem wires_inj (ps : List Packet) : ∀ (qs : List Packet) (r s : List Byte), LacksBytes r → LacksBytes s →
    (ps.map Packet.wire).flatten ++ r = (qs.map Packet.wire).flatten ++ s →
    List.Forall₂ (fun p q => p.eqv q = true) ps qs ∧ r = s := by
  have one : ∀ (p : Packet) (t s : List Byte), LacksBytes s → p.wire ++ t ≠ s := by
    intro p t s hs e
    obtain ⟨t', ht⟩ := wire_head p
    have hl := wire_length p
    have := hs (p.byteAt 0) (t' ++ t) (by rw [← e, ht]; rfl)
    rw [← e, ← size_of_byte p] at this
    simp at this; omega
  induction ps with
  | nil =>
    intro qs r s hr hs h
    cases qs with
    | nil => exact ⟨.nil, by simpa using h⟩
    | cons q qs => exact absurd (by simpa using h.symm) (one q ((qs.map Packet.wire).flatten ++ s) r hr)
  | cons p ps ih =>
    intro qs r s hr hs h
    cases qs with
    | nil => exact absurd (by simpa using h) (one p ((ps.map Packet.wire).flatten ++ r) s hs)
    | cons q qs =>
      simp only [List.map_cons, List.flatten_cons, List.append_assoc] at h
      obtain ⟨t, ht⟩ := wire_head p
      obtain ⟨u, hu⟩ := wire_head q
      have e0 : p.byteAt 0 = q.byteAt 0 := by
        have := congrArg List.head? h
        rw [ht, hu] at this; simpa using this
      have hl : p.wire.length = q.wire.length := by rw [wire_length, wire_length, size_of_byte, size_of_byte, e0]
      obtain ⟨h1, h2⟩ := List.append_inj h hl
      obtain ⟨h3, h4⟩ := ih qs r s hr hs h2
      exact ⟨.cons (wire_eqv.1 h1) h3, h4⟩

/-! ## The theorems -/

/-- C115: any packets are sent. A receiver that is between two packets delivers packets that are equal to these, in order, and is between
two packets again. -/
theorem C115_arrive (ps : List Packet) (r : PacketReader) (hr : r.count = 0) :
    ∃ bss r' qs, ps.mapM sendBytes = .ok bss ∧ r.readAll bss.flatten = .ok (r', qs) ∧ r'.count = 0 ∧
      List.Forall₂ (fun p q => p.eqv q = true) ps qs := by
  obtain ⟨r', qs, rest, h1, h2, h3, _⟩ := read_all ((ps.map Packet.wire).flatten) (r := r) (rest := [])
    ⟨hr, lacksBytes_nil, fun h => absurd rfl h⟩
  obtain ⟨h4, h5⟩ := wires_inj ps qs [] rest lacksBytes_nil h2.unfinished (by simpa using h3)
  exact ⟨_, r', qs, sendBytes_all ps, h1, by rw [h2.count, ← h5]; rfl, h4⟩

example : sendBytes ⟨0x40903C00, 0xC0000000, 1, 2⟩ = .ok [0x40, 0x90, 0x3C, 0, 0xC0, 0, 0, 0] ∧
    ∃ r, ({} : PacketReader).readAll [0x40, 0x90, 0x3C, 0, 0xC0, 0, 0, 0, 0x20] = .ok (r, [⟨0x40903C00, 0xC0000000, 0, 0⟩]) ∧
      r.count = 1 := ⟨rfl, _, rfl, rfl⟩

/-- C115: any bytes arrive, whoever has sent them, and however many have arrived yet. Nothing fails; the bytes are those of the packets
delivered, in order, and then those of a packet that is not complete. -/
theorem C115_any_bytes (bs : List Byte) :
    ∃ r ps sent rest, ({} : PacketReader).readAll bs = .ok (r, ps) ∧ ps.mapM sendBytes = .ok sent ∧ bs = sent.flatten ++ rest ∧
      LacksBytes rest ∧ r.count = rest.length := by
  obtain ⟨r, ps, rest, h1, h2, h3, _⟩ := read_all bs (r := {}) (rest := []) ⟨rfl, lacksBytes_nil, fun h => absurd rfl h⟩
  exact ⟨r, ps, _, rest, h1, sendBytes_all ps, h3, h2.unfinished, h2.count⟩

/-- C115: different packets are never sent as the same bytes: two sequences of packets have the same bytes exactly if they have the same
length and the packets are equal, one by one. -/
theorem C115_unique (ps qs : List Packet) : ∃ bss css, ps.mapM sendBytes = .ok bss ∧ qs.mapM sendBytes = .ok css ∧
    (bss.flatten = css.flatten ↔ List.Forall₂ (fun p q => p.eqv q = true) ps qs) := by
  refine ⟨_, _, sendBytes_all ps, sendBytes_all qs, fun h => ?_, fun h => ?_⟩
  · exact (wires_inj ps qs [] [] lacksBytes_nil lacksBytes_nil (by rw [h])).1
  · induction h with
    | nil => rfl
    | cons h _ ih => rw [List.map_cons, List.map_cons, List.flatten_cons, List.flatten_cons, ih, wire_eqv.2 h]

/-- C115: words get lost, so that the receiver takes words for others. After three NOOP messages (words that are zero) it is between two
packets, whatever words have arrived before: all that follow arrive (`C115_arrive`). -/
theorem C115_in_step (bs : List Byte) (hbs : bs.length % 4 = 0) :
    ∃ r ps r' qs, ({} : PacketReader).readAll bs = .ok (r, ps) ∧ r.readAll (List.replicate 12 0) = .ok (r', qs) ∧ r'.count = 0 := by
  have dvd : ∀ qs : List Packet, (qs.map Packet.wire).flatten.length % 4 = 0 := by
    intro qs
    induction qs with
    | nil => rfl
    | cons q qs ih => rw [List.map_cons, List.flatten_cons, List.length_append, wire_length]; omega
  obtain ⟨r, ps, rest, h1, h2, h3, _⟩ := read_all bs (r := {}) (rest := []) ⟨rfl, lacksBytes_nil, fun h => absurd rfl h⟩
  obtain ⟨r', qs, rest', g1, g2, g3, _⟩ := read_all (List.replicate 12 0) h2
  refine ⟨r, ps, r', qs, h1, g1, ?_⟩
  have l1 : rest.length % 4 = 0 := by
    have := congrArg List.length h3
    have := dvd ps
    simp only [List.nil_append, List.length_append] at *
    omega
  have l2 := congrArg List.length g3
  simp only [List.length_append, List.length_replicate] at l2
  have l3 := dvd qs
  have lw : ∀ n, wordsOfType n ≤ 4 := by intro n; unfold wordsOfType; (repeat' split) <;> omega
  -- a rest that consists of zeros is none
  have zeros : (∃ k, List.replicate 12 0 = k ++ rest') → rest' = [] := by
    rintro ⟨k, hk⟩
    cases hr : rest' with
    | nil => rfl
    | cons c t =>
      have hc : c ∈ List.replicate 12 (0 : Byte) := by rw [hk, hr]; simp
      obtain rfl := (List.mem_replicate.1 hc).2
      have := g2.unfinished 0 t hr
      rw [show wordsOfType ((0 : Byte).toNat / 16) = 1 by decide] at this
      have : rest'.length ≠ 0 := by rw [hr]; simp
      omega
  rw [g2.count]
  rcases rest with _ | ⟨c, t⟩
  · rw [zeros ⟨_, by simpa using g3⟩]; rfl
  · rcases qs with _ | ⟨q, qs⟩
    · exfalso
      simp only [List.map_nil, List.flatten_nil, List.nil_append] at g3
      have := g2.unfinished c _ g3.symm
      have := lw (c.toNat / 16)
      simp only [List.map_nil, List.flatten_nil, List.length_nil, List.length_cons] at *
      omega
    · have hq : q.wire.length > (c :: t).length := by
        obtain ⟨u, hu⟩ := wire_head q
        have e0 : c = q.byteAt 0 := by
          have := congrArg List.head? g3
          rw [List.map_cons, List.flatten_cons, hu] at this; simpa using this
        have := h2.unfinished c t rfl
        rw [wire_length, size_of_byte, ← e0]; exact this
      have : ∃ k, List.replicate 12 0 = k ++ rest' := by
        rcases List.append_eq_append_iff.1 g3 with ⟨k, hk, hk'⟩ | ⟨k, hk, hk'⟩
        · exact ⟨k, hk'⟩
        · exfalso
          have := congrArg List.length hk
          simp only [List.map_cons, List.flatten_cons, List.length_append] at this
          omega
      rw [zeros this]; rfl

/-- C115: sysex7 messages are sent, with any other packets between. A receiver between two packets, with a sysex7 collector that has
received any packets, delivers the messages. -/
theorem C115_sysex7 (hist : List Packet) (ms : List (Sysex × Byte)) (hms : ∀ m ∈ ms, Sendable7 m) (sent : List (List Packet))
    (hs : ms.mapM (fun m => sendSysex7 m.1 m.2) = .ok sent) (qs : List Packet)
    (hq : qs.filter (fun p => decide (IsSysex7 p)) = sent.flatten) (r : PacketReader) (hr : r.count = 0) :
    ∃ c before bss r' ps c', ({} : Collector7).feedAll hist = .ok (c, before) ∧ qs.mapM sendBytes = .ok bss ∧
      r.readAll bss.flatten = .ok (r', ps) ∧ c.feedAll ps = .ok (c', ms.map Prod.fst) := by
  obtain ⟨c, before, c', h1, h2⟩ := C18_sysex7_round_trip hist ms hms sent hs qs hq
  obtain ⟨bss, r', ps, h3, h4, _, h5⟩ := C115_arrive qs r hr
  exact ⟨c, before, bss, r', ps, c', h1, h3, h4, by rw [← C85_collector7 c qs ps h5]; exact h2⟩

/-- C115: sysex8 messages are sent, with any other packets between. A receiver between two packets, with a sysex8 collector that has
received any packets, delivers what it delivers of the packets themselves (C20). -/
theorem C115_sysex8 (hist : List Packet) (ms : List (Sysex × Byte × Byte))
    (hms : ∀ m ∈ ms, (GenuineId m.1.manufacturerID ∨ m.1.manufacturerID = 0) ∧ m.2.2 < 16) (sent : List (List Packet))
    (hs : ms.mapM (fun m => sendSysex8 m.1 m.2.1 m.2.2) = .ok sent) (qs : List Packet)
    (hq : qs.filter (fun p => decide (IsSysex8 p)) = sent.flatten) (r : PacketReader) (hr : r.count = 0) :
    ∃ c before bss r' ps c', ({} : Collector8).feedAll hist = .ok (c, before) ∧ qs.mapM sendBytes = .ok bss ∧
      r.readAll bss.flatten = .ok (r', ps) ∧ c.feedAll ps = .ok (c', ms.flatMap fun m => Spec.received8 m.1 m.2.1) := by
  obtain ⟨c, before, c', h1, h2⟩ := C20_received hist ms hms sent hs qs hq
  obtain ⟨bss, r', ps, h3, h4, _, h5⟩ := C115_arrive qs r hr
  exact ⟨c, before, bss, r', ps, c', h1, h3, h4, by rw [← C85_collector8 c qs ps h5]; exact h2⟩

example : ∃ sent, [((⟨0x7E0000, List.replicate 20 1⟩, 3) : Sysex × Byte)].mapM (fun m => sendSysex7 m.1 m.2) = .ok sent ∧
    (⟨0x10F80000, 0, 0, 0⟩ :: sent.flatten).filter (fun p => decide (IsSysex7 p)) = sent.flatten ∧
    ∀ m ∈ [((⟨0x7E0000, List.replicate 20 1⟩, 3) : Sysex × Byte)], Sendable7 m :=
  ⟨_, rfl, by decide +kernel, by decide⟩

example : ∃ sent, [((⟨0x7E0000, List.replicate 20 0xFF⟩, 3, 1) : Sysex × Byte × Byte)].mapM (fun m => sendSysex8 m.1 m.2.1 m.2.2) = .ok sent ∧
    (⟨0x10F80000, 0, 0, 0⟩ :: sent.flatten).filter (fun p => decide (IsSysex8 p)) = sent.flatten ∧
    ∀ m ∈ [((⟨0x7E0000, List.replicate 20 0xFF⟩, 3, 1) : Sysex × Byte × Byte)],
      (GenuineId m.1.manufacturerID ∨ m.1.manufacturerID = 0) ∧ m.2.2 < 16 :=
  ⟨_, rfl, by decide +kernel, by decide⟩

/-- C115: a word is lost. A MIDI 2 note on, without its first word, is taken for the beginning of another message; the note on that
follows is not delivered. With three NOOP messages between, it is. -/
theorem C115_lost_word : ∃ r r',
    ({} : PacketReader).readAll [0xC0, 0, 0, 0, 0x20, 0x90, 0x3C, 0x40] = .ok (r, []) ∧
    ({} : PacketReader).readAll ([0xC0, 0, 0, 0] ++ List.replicate 12 0 ++ [0x20, 0x90, 0x3C, 0x40]) =
      .ok (r', [⟨0xC0000000, 0, 0, 0⟩, ⟨0, 0, 0, 0⟩, ⟨0x20903C40, 0, 0, 0⟩]) := ⟨_, _, rfl, rfl⟩

/-- C115: a byte is lost. Of MIDI 1 note messages (20 90 3C 40 and 20 90 3C 00, again and again) without the first byte none is delivered,
however many follow, but packets of another type. -/
theorem C115_lost_byte (n : Nat) : ∃ r, ({} : PacketReader).readAll
      (List.replicate n ([0x90, 0x3C, 0x40, 0x20, 0x90, 0x3C, 0, 0x20] : List Byte)).flatten =
    .ok (r, List.replicate n ⟨0x903C4020, 0x903C0020, 0, 0⟩) := by
  have step : ∀ r : PacketReader, r.count = 0 → ∀ bs r' qs, (⟨⟨0x903C4020, 0x903C0020, 0, 0⟩, 0⟩ : PacketReader).readAll bs = .ok (r', qs) →
      r.readAll ([0x90, 0x3C, 0x40, 0x20, 0x90, 0x3C, 0, 0x20] ++ bs) = .ok (r', ⟨0x903C4020, 0x903C0020, 0, 0⟩ :: qs) := by
    rintro ⟨p, _⟩ rfl bs r' qs h
    refine read_append [0x90, 0x3C, 0x40, 0x20, 0x90, 0x3C, 0, 0x20] bs (q1 := [⟨0x903C4020, 0x903C0020, 0, 0⟩]) ?_ h
    have e : ∀ b bs, (⟨p, 0⟩ : PacketReader).readAll (b :: bs) = (⟨{}, 0⟩ : PacketReader).readAll (b :: bs) := fun _ _ => rfl
    rw [e]; decide +kernel
  have : ∀ n (r : PacketReader), r.count = 0 → ∃ r', r.readAll
      (List.replicate n ([0x90, 0x3C, 0x40, 0x20, 0x90, 0x3C, 0, 0x20] : List Byte)).flatten =
    .ok (r', List.replicate n ⟨0x903C4020, 0x903C0020, 0, 0⟩) := by
    intro n
    induction n with
    | zero => intro r _; exact ⟨r, rfl⟩
    | succ n ih =>
      intro r hr
      obtain ⟨r', h⟩ := ih ⟨⟨0x903C4020, 0x903C0020, 0, 0⟩, 0⟩ rfl
      exact ⟨r', by rw [List.replicate_succ, List.flatten_cons, step r hr _ _ _ h]; rfl⟩
  exact this n {} rfl

end Midi
