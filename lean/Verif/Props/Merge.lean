import Verif.Props.ByteStreamNormal
import Verif.Spec.Merge

/-!
# C114: several MIDI 1 cables
-/

namespace Midi
open Spec

/-! ## Helper lemmas -/

theorem onCable_cons_same {α : Type} (i : Nat) (a : α) (t : List (Nat × α)) : onCable i ((i, a) :: t) = a :: onCable i t := by
  simp [onCable]

theorem onCable_cons_other {α : Type} {i k : Nat} (h : k ≠ i) (a : α) (t : List (Nat × α)) :
    onCable i ((k, a) :: t) = onCable i t := by
  simp [onCable, h]

theorem onCable_append {α : Type} (i : Nat) (s t : List (Nat × α)) : onCable i (s ++ t) = onCable i s ++ onCable i t := by
  simp [onCable]

theorem onCable_map_same {α : Type} (i : Nat) (es : List α) : onCable i (es.map fun e => (i, e)) = es := by
  simp [onCable, List.filter_map, Function.comp_def]

theorem onCable_map_other {α : Type} {i k : Nat} (h : k ≠ i) (es : List α) : onCable i (es.map fun e => (k, e)) = [] := by
  simp [onCable, List.filter_map, Function.comp_def, h]

theorem mem_onCable {α : Type} {i : Nat} {a : α} {t : List (Nat × α)} : a ∈ onCable i t ↔ (i, a) ∈ t := by
  simp [onCable]

/-- A message a parser delivers, other than one with manufacturer id zero, can be sent. -/
theorem sendable_message7 {d : List Byte} (hd : ∀ b ∈ d, b < 0x80) (h0 : (message7 d).manufacturerID ≠ 0) {g : Byte} (hg : g < 16) :
    Sendable7 (message7 d, g) := by
  have three : ∀ n : Nat, n / 256 < 128 → n % 256 < 128 → BitVec.ofNat 32 n ≠ 0 → ThreeByteId (BitVec.ofNat 32 n) := by
    intro n h1 h2 h
    unfold ThreeByteId
    rw [BitVec.toNat_ofNat, Nat.mod_eq_of_lt (by omega)]
    have : n ≠ 0 := by rintro rfl; exact h rfl
    omega
  have lt : ∀ b ∈ d, b.toNat < 128 := fun b hb => hd b hb
  match d, hd, lt, h0 with
  | [], _, _, h0 => exact absurd rfl h0
  | a :: d, hd, lt, h0 =>
    have la := lt a (by simp)
    by_cases ha : a = 0
    · subst ha
      match d, hd, lt, h0 with
      | [], _, _, h0 => exact absurd rfl h0
      | [b], hd, lt, h0 =>
        have lb := lt b (by simp)
        exact ⟨.inr (three (b.toNat * 256) (by omega) (by omega) h0), (by intro x hx; cases hx), hg⟩
      | b :: c :: d, hd, lt, h0 =>
        have lb := lt b (by simp)
        have lc := lt c (by simp)
        exact ⟨.inr (three (b.toNat * 256 + c.toNat) (by omega) (by omega) h0), fun x hx => hd x (by
          have hx : x ∈ d := hx
          simp [hx]), hg⟩
    · have e : message7 (a :: d) = ⟨BitVec.ofNat 32 (a.toNat * 65536), d⟩ := by unfold message7; exact if_neg ha
      rw [e]
      refine ⟨.inl ?_, fun x hx => hd x (by simp [show x ∈ d from hx]), hg⟩
      have : a.toNat ≠ 0 := fun h => ha (BitVec.eq_of_toNat_eq h)
      have e' : (BitVec.ofNat 32 (a.toNat * 65536)).toNat = a.toNat * 65536 := by
        rw [BitVec.toNat_ofNat]; exact Nat.mod_eq_of_lt (by omega)
      unfold OneByteId
      dsimp only
      rw [e']
      omega

/-- One thing passed on. -/
theorem passOn_one {g : Byte} (hg : g < 16) {e : Event} (he : GoodEvent [g] true e)
    (h0 : ∀ m, e = .sysex m → m.manufacturerID ≠ 0) (q : Parser) (hq : Reached q) (hqg : q.group = g) (hcb : q.hasSysexCallback = true)
    (hon : q.invokeCallbacks = true) :
    ∃ bs q', passOn g e = .ok bs ∧ q.feedAll bs = .ok (q', [e]) ∧ Reached q' ∧ q'.group = g ∧ q'.hasSysexCallback = true ∧
      q'.invokeCallbacks = true := by
  have after : ∀ bs q', q.feedAll bs = .ok (q', [e]) → Reached q' ∧ q'.group = g ∧ q'.hasSysexCallback = true ∧
      q'.invokeCallbacks = true := by
    intro bs q' h
    obtain ⟨st, r, _⟩ := reached_rel hq
    obtain ⟨p, e, r'⟩ := feedAll_rel bs r
    have : p = q' := (Prod.mk.inj (Except.ok.inj (e.symm.trans h))).1
    subst this
    exact ⟨hq.feedAll h, r'.group.trans hqg, r'.cb.trans hcb, r'.on.trans hon⟩
  cases he with
  | short g' s d hg' hs hl hd =>
    obtain rfl := List.mem_singleton.1 hg'
    obtain ⟨st, r, _⟩ := reached_rel hq
    obtain ⟨q', e, _⟩ := feedAll_rel (s :: d) r
    rw [stepBytes_short _ hon st hs hl hd] at e
    dsimp only at e
    rw [hqg] at e
    refine ⟨s :: d, q', ?_, e, after _ _ e⟩
    rw [passOn, (C33_to_byte_stream _).1, streamBytes_shortMessage hg hs hl]
  | data g' f d hg' hl hd hc => cases hc
  | sysex d hd hc =>
    have hs := sendable_message7 hd (h0 _ rfl) hg
    obtain ⟨ps, bss, q', h1, h2, _, h4⟩ := C35_chain_callback _ _ hs q hq hcb hon
    refine ⟨bss.flatten, q', ?_, h4, after _ _ h4⟩
    rw [passOn, h1, ok_bind, h2, ok_bind]; rfl

/-- All of it passed on. -/
theorem passOn_all {g : Byte} (hg : g < 16) (es : List Event) : (∀ e ∈ es, GoodEvent [g] true e) →
    (∀ m, .sysex m ∈ es → m.manufacturerID ≠ 0) → ∀ (q : Parser), Reached q → q.group = g → q.hasSysexCallback = true →
    q.invokeCallbacks = true → ∃ bss q', es.mapM (passOn g) = .ok bss ∧ q.feedAll bss.flatten = .ok (q', es) := by
  induction es with
  | nil => intro _ _ q _ _ _ _; exact ⟨[], q, rfl, rfl⟩
  | cons e es ih =>
    intro he h0 q h1 h2 h3 h4
    obtain ⟨bs, q1, p1, f1, r1, r2, r3, r4⟩ := passOn_one hg (he e (by simp)) (fun m hm => h0 m (by simp [hm])) q h1 h2 h3 h4
    obtain ⟨bss, q2, p2, f2⟩ := ih (fun x hx => he x (by simp [hx])) (fun m hm => h0 m (by simp [hm])) q1 r1 r2 r3 r4
    refine ⟨bs :: bss, q2, ?_, ?_⟩
    · rw [List.mapM_cons, p1, ok_bind, p2]; rfl
    · rw [List.flatten_cons, feedAll_append, f1]
      show (q1.feedAll bss.flatten).map _ = _
      rw [f2]; rfl

/-! ## The theorems -/

/-- C114: whatever arrives on the cables, in any order: the program does not fail, and of each cable it learns exactly what it would
learn if there were no other cables. -/
theorem C114_cables (t : List (Nat × Byte)) : ∀ (ps : Nat → Parser), (∀ x ∈ t, Reached (ps x.1)) →
    ∃ ps' es, listenAll ps t = .ok (ps', es) ∧ ∀ i, (ps i).feedAll (onCable i t) = .ok (ps' i, onCable i es) := by
  induction t with
  | nil => intro ps _; exact ⟨ps, [], rfl, fun _ => rfl⟩
  | cons x t ih =>
    obtain ⟨i, b⟩ := x
    intro ps hps
    have hi : Reached (ps i) := hps (i, b) (by simp)
    obtain ⟨st, r, _⟩ := reached_rel hi
    obtain ⟨p, e, _⟩ := feedAll_rel [b] r
    have hp := hi.feedAll e
    generalize (stepBytes _ st [b]).2 = es at e
    obtain ⟨ps', fs, h, hc⟩ := ih (fun k => if k = i then p else ps k) (by
      intro k hk
      split
      · exact hp
      · exact hps k (List.mem_cons_of_mem _ hk))
    have e1 : (ps i).feed b = .ok (p, es) := by
      simp only [Parser.feedAll] at e
      cases hf : (ps i).feed b with
      | error f => rw [hf] at e; cases e
      | ok v => rw [hf] at e; simpa [ok_bind, pure_eq_ok] using e
    refine ⟨ps', es.map (fun e => (i, e)) ++ fs, ?_, fun k => ?_⟩
    · rw [listenAll, e1, ok_bind]
      dsimp only
      rw [h]; rfl
    · have hk := hc k
      by_cases hik : i = k
      · subst hik
        rw [if_pos rfl] at hk
        rw [onCable_cons_same, onCable_append, onCable_map_same, Parser.feedAll, e1, ok_bind]
        dsimp only
        rw [hk]; rfl
      · rw [if_neg (Ne.symm hik)] at hk
        rw [onCable_cons_other hik, onCable_append, onCable_map_other hik]
        exact hk

/-- C114: merging. The program passes on whatever one of its parsers reports: a packet, or a whole sysex message, converted to bytes. For
any bytes on any number of cables, in any order, a parser at the end of the cable on which the program sends, in any state, delivers
exactly what the parsers of the program have reported, in this order; provided that no sysex message has the manufacturer id 00 00 00. -/
theorem C114_merge (g : Byte) (hg : g < 16) (t : List (Nat × Byte)) (q : Parser) (hq : Reached q) (hqg : q.group = g)
    (hcb : q.hasSysexCallback = true) (hon : q.invokeCallbacks = true) :
    ∃ ps es, listenAll (fun _ => Parser.new g true true) t = .ok (ps, es) ∧
      ((∀ i m, (i, Event.sysex m) ∈ es → m.manufacturerID ≠ 0) →
        ∃ bss q', (es.map Prod.snd).mapM (passOn g) = .ok bss ∧ q.feedAll bss.flatten = .ok (q', es.map Prod.snd)) := by
  obtain ⟨ps, es, h, hc⟩ := C114_cables t (fun _ => Parser.new g true true) fun _ _ => reached_new hg _ _
  refine ⟨ps, es, h, fun h0 => passOn_all hg _ ?_ ?_ q hq hqg hcb hon⟩
  · intro e he
    obtain ⟨⟨i, e'⟩, hm, rfl⟩ := List.mem_map.1 he
    obtain ⟨p, hp⟩ := C26_parser_bytes g true (onCable i t) hg
    have := (Prod.mk.inj (Except.ok.inj (hp.symm.trans (hc i)))).2
    exact (stepBytes_good [g] ⟨g, true, true⟩ (by simp) (onCable i t) .idle trivial).2 _ (this ▸ mem_onCable.2 hm)
  · intro m hm
    obtain ⟨⟨i, e'⟩, hm, he⟩ := List.mem_map.1 hm
    dsimp only at he
    subst he
    exact h0 i m hm

example : ∃ ps es bss q', listenAll (fun _ => Parser.new 2 true true)
      [(0, 0xF0), (1, 0xF0), (0, 0x7E), (1, 0x41), (1, 5), (0, 0xF8), (1, 0x90), (0, 1), (1, 60), (0, 0xF7), (1, 64), (1, 62), (1, 0)] = .ok (ps, es) ∧
    es = [(0, .packet ⟨0x12F80000, 0, 0, 0⟩), (0, .sysex ⟨0x7E0000, [1]⟩), (1, .packet ⟨0x22903C40, 0, 0, 0⟩), (1, .packet ⟨0x22903E00, 0, 0, 0⟩)] ∧
    (es.map Prod.snd).mapM (passOn 2) = .ok bss ∧ bss.flatten = [0xF8, 0xF0, 0x7E, 1, 0xF7, 0x90, 60, 64, 0x90, 62, 0] ∧
    (Parser.new 2 true true).feedAll bss.flatten = .ok (q', es.map Prod.snd) :=
  ⟨_, _, _, _, rfl, by decide +kernel, rfl, by decide +kernel, rfl⟩

/-- C114: nothing is held back. When some of the bytes have arrived, everything that was reported has been passed on: it does not
depend on what arrives later. -/
theorem C114_at_once (t u : List (Nat × Byte)) : ∀ (ps : Nat → Parser) (ps' : Nat → Parser) (es : List (Nat × Event)),
    listenAll ps (t ++ u) = .ok (ps', es) →
    ∃ ps1 es1 es2, listenAll ps t = .ok (ps1, es1) ∧ listenAll ps1 u = .ok (ps', es2) ∧ es = es1 ++ es2 := by
  induction t with
  | nil => intro ps ps' es h; exact ⟨ps, [], es, rfl, h, rfl⟩
  | cons x t ih =>
    obtain ⟨i, b⟩ := x
    intro ps ps' es h
    rw [List.cons_append, listenAll] at h
    rw [listenAll]
    cases hf : (ps i).feed b with
    | error f => rw [hf] at h; cases h
    | ok v =>
      obtain ⟨p, e0⟩ := v
      rw [hf, ok_bind] at h
      dsimp only at h
      cases hl : listenAll (fun k => if k = i then p else ps k) (t ++ u) with
      | error f => rw [hl] at h; cases h
      | ok w =>
        obtain ⟨ps'', fs⟩ := w
        obtain ⟨ps1, es1, es2, h1, h2, h3⟩ := ih _ _ _ hl
        rw [hl, ok_bind] at h
        cases h
        refine ⟨ps1, e0.map (fun e => (i, e)) ++ es1, es2, ?_, h2, by rw [h3, List.append_assoc]⟩
        rw [ok_bind]
        dsimp only
        rw [h1]; rfl

/-- C114: so the order in which messages are passed on is the order in which their last bytes arrive: a message is reported with its last
byte (C93), whatever other cables have been sending. Two messages that arrive byte by byte at the same time, the second complete first. -/
example : ∃ ps, listenAll (fun _ => Parser.new 0 true true) [(0, 0x90), (1, 0xC0), (0, 60), (1, 7), (0, 64)] =
    .ok (ps, [(1, .packet ⟨0x20C00700, 0, 0, 0⟩), (0, .packet ⟨0x20903C40, 0, 0, 0⟩)]) := ⟨_, rfl⟩

/-- C114: parsers without sysex callback do not do for merging. Two sysex messages that arrive at the same time: their packets are
passed on one by one, and the parser at the end of the cable reports one message that nobody has sent, instead of two. -/
theorem C114_packets_broken : ∃ ps es bss q',
    listenAll (fun _ => Parser.new 0 false true) ([0xF0, 0x7E, 1, 2, 3, 4, 5].map (fun b => (0, b)) ++
      [0xF0, 0x41, 7, 7, 7, 7, 7, 7, 0xF7].map (fun b => (1, b)) ++ [6, 0xF7].map fun b => (0, b)) = .ok (ps, es) ∧
    (es.map Prod.snd).mapM (passOn 0) = .ok bss ∧
    bss.flatten = [0xF0, 0x7E, 1, 2, 3, 4, 5, 0xF0, 0x41, 7, 7, 7, 7, 7, 7, 0xF7, 6, 0xF7] ∧
    (Parser.new 0 true true).feedAll bss.flatten = .ok (q', [.sysex ⟨0x410000, [7, 7, 7, 7, 7, 7]⟩]) :=
  ⟨_, _, _, _, rfl, rfl, by decide +kernel, rfl⟩

/-- C114: a sysex message with manufacturer id 00 00 00 is passed on as a message with another id: the parser reports the id as 0, which
is sent in one byte. -/
theorem C114_id_zero : ∃ ps es bss q',
    listenAll (fun _ => Parser.new 0 true true) ([0xF0, 0, 0, 0, 1, 2, 3, 0xF7].map fun b => (0, b)) = .ok (ps, es) ∧
    es = [(0, .sysex ⟨0, [1, 2, 3]⟩)] ∧ (es.map Prod.snd).mapM (passOn 0) = .ok bss ∧ bss.flatten = [0xF0, 0, 1, 2, 3, 0xF7] ∧
    (Parser.new 0 true true).feedAll bss.flatten = .ok (q', [.sysex ⟨0x000102, [3]⟩]) :=
  ⟨_, _, _, _, rfl, by decide +kernel, rfl, by decide +kernel, rfl⟩

/-- C114: sixteen cables in one connection. The parser of cable `i` works in group `i`, without sysex callback, and all packets are sent
over one connection, in the order in which they are reported. For any bytes in any order, the packets of group `i` are those of cable `i`;
converted to bytes and sent over another cable to a parser in any state, they are delivered again, as if there were only this cable. -/
theorem C114_groups (t : List (Nat × Byte)) (ht : ∀ x ∈ t, x.1 < 16) :
    ∃ ps es, listenAll (fun i => Parser.new (BitVec.ofNat 8 i) false true) t = .ok (ps, es) ∧ ∀ i, i < 16 →
      (Parser.new (BitVec.ofNat 8 i) false true).feedAll (onCable i t) = .ok (ps i, onCable i es) ∧
      (packetsOf (es.map Prod.snd)).filter (fun p => groupOf p = i) = packetsOf (onCable i es) ∧
      ∀ q, Reached q → q.group = BitVec.ofNat 8 i → q.hasSysexCallback = false → q.invokeCallbacks = true →
        ∃ bss q', ((packetsOf (es.map Prod.snd)).filter fun p => groupOf p = i).mapM toMidi1ByteStream = .ok bss ∧
          q.feedAll bss.flatten = .ok (q', onCable i es) := by
  have lt : ∀ i, i < 16 → (BitVec.ofNat 8 i) < (16 : Byte) := by decide +kernel
  obtain ⟨ps, es, h, hc⟩ := C114_cables t (fun i => Parser.new (BitVec.ofNat 8 i) false true) fun x hx => reached_new (lt _ (ht x hx)) _ _
  refine ⟨ps, es, h, fun i hi => ?_⟩
  have key : (packetsOf (es.map Prod.snd)).filter (fun p => groupOf p = i) = packetsOf (onCable i es) := by
    have good : ∀ x ∈ es, ∃ p, x.2 = .packet p ∧ groupOf p = x.1 := by
      intro x hx
      have h1 := mem_onCable (i := x.1) (a := x.2) (t := es) |>.2 hx
      by_cases hk : x.1 < 16
      · obtain ⟨p, hp⟩ := C26_parser_bytes (BitVec.ofNat 8 x.1) false (onCable x.1 t) (lt _ hk)
        have := (Prod.mk.inj (Except.ok.inj (hp.symm.trans (hc x.1)))).2
        have g := (stepBytes_good [BitVec.ofNat 8 x.1] ⟨BitVec.ofNat 8 x.1, false, true⟩ (by simp) (onCable x.1 t) .idle trivial).2 _
          (this ▸ h1)
        have e8 : (BitVec.ofNat 8 x.1).toNat = x.1 := by rw [BitVec.toNat_ofNat]; exact Nat.mod_eq_of_lt (by omega)
        generalize x.2 = ev at g
        cases g with
        | short g' s d hg' hs hl hd =>
          obtain rfl := List.mem_singleton.1 hg'
          obtain ⟨k, hk', e⟩ := (wellFormed_short _ hg' (lt _ hk) hs hl hd).group
          obtain rfl := List.mem_singleton.1 hk'
          exact ⟨_, rfl, e.trans e8⟩
        | data g' f d hg' hl hd _ =>
          obtain rfl := List.mem_singleton.1 hg'
          obtain ⟨k, hk', e⟩ := (wellFormed_sysex _ f hg' (lt _ hk) hl hd).group
          obtain rfl := List.mem_singleton.1 hk'
          exact ⟨_, rfl, e.trans e8⟩
        | sysex d hd hc => cases hc
      · have : onCable x.1 t = [] := by
          unfold onCable
          rw [List.filter_eq_nil_iff.2 (by intro y hy; have := ht y hy; simp; omega)]; rfl
        have h2 := hc x.1
        rw [this] at h2
        rw [← (Prod.mk.inj (Except.ok.inj h2)).2] at h1
        cases h1
    clear h hc
    induction es with
    | nil => rfl
    | cons x es ih =>
      obtain ⟨p, e1, e2⟩ := good x (by simp)
      have ih := ih fun y hy => good y (by simp [hy])
      obtain ⟨k, ev⟩ := x
      dsimp only at e1 e2
      subst e1
      by_cases hk : k = i
      · subst hk
        rw [onCable_cons_same]
        simp only [List.map_cons, packetsOf, List.filterMap_cons, List.filter_cons, e2, decide_true, if_true] at ih ⊢
        rw [ih]
      · rw [onCable_cons_other hk]
        simp only [List.map_cons, packetsOf, List.filterMap_cons, List.filter_cons, e2, decide_eq_true_eq, if_neg hk] at ih ⊢
        exact ih
  refine ⟨hc i, key, fun q h1 h2 h3 h4 => ?_⟩
  obtain ⟨p, es', bss, q', f1, f2, f3, _⟩ := C56_reparse _ (lt i hi) (onCable i t) q h1 h2 h3 h4
  have : es' = onCable i es := (Prod.mk.inj (Except.ok.inj (f1.symm.trans (hc i)))).2
  rw [this] at f2 f3
  exact ⟨bss, q', by rw [key]; exact f2, f3⟩

example := C114_groups [(3, 0xF0), (5, 0x90), (3, 1), (5, 60), (3, 0xF7), (5, 64)] (by decide)

end Midi
