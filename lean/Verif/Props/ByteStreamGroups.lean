import Verif.Props.ByteStream
import Verif.Props.CollectorExact
import Verif.Lemmas.StreamSysex
import Mathlib.Data.List.Forall2

/-!
# C74, C75: the byte stream parser and its group
-/

namespace Midi
open Spec

/-! ## Specification -/

/-- Two operations that are the same, except for the group that is set. -/
inductive Regrouped : Parser.Op → Parser.Op → Prop where
  | feed (bs : List Byte) : Regrouped (.feed bs) (.feed bs)
  | enable (on : Bool) : Regrouped (.enable on) (.enable on)
  | reset : Regrouped .reset .reset
  | setGroup (g h : Byte) : Regrouped (.setGroup g) (.setGroup h)

/-- Two events that are the same, except for the group of a packet. -/
inductive SameEvent : Event → Event → Prop where
  | packet {p q : Packet} : SameExceptGroup p q → SameEvent (.packet p) (.packet q)
  | sysex (s : Sysex) : SameEvent (.sysex s) (.sysex s)

/-- Bytes fed one by one, with a group set before each: pairs of group and byte. -/
def timed (l : List (Byte × Byte)) : List Parser.Op := l.flatMap fun x => [.setGroup x.1, .feed [x.2]]

/-- The sysex packets behind the first one, if `l` are the data bytes they contain, each with the group set when it was fed, and
`g` is the group that was set when the last byte of the packet before was fed: six bytes to a packet, each packet in the group that
was set at the last byte of the packet before. -/
def followingPackets (g : Byte) (l : List (Byte × Byte)) : List Packet :=
  if h : l.length < 6 then [sysexPacket g 3 (l.map Prod.snd)]
  else sysexPacket g 2 ((l.take 6).map Prod.snd) :: followingPackets (l[5]'(by omega)).1 (l.drop 6)
  termination_by l.length
  decreasing_by simp only [List.length_drop]; omega

/-- All packets of a sysex message with the data bytes `l`, started in the group `g`. -/
def timedPackets (g : Byte) (l : List (Byte × Byte)) : List Packet :=
  if h : l.length < 6 then (if l = [] then [] else [sysexPacket g 0 (l.map Prod.snd)])
  else sysexPacket g 1 ((l.take 6).map Prod.snd) :: followingPackets (l[5]'(by omega)).1 (l.drop 6)

/-! ## C74 -/

theorem sameExcept_packetOf {x y : Byte} (h : x >>> 4 = y >>> 4) (l : List Byte) :
    SameExceptGroup (packetOf (x :: l)) (packetOf (y :: l)) := by
  refine ⟨?_, fun b hb => ?_⟩
  · have e : ∀ r : Packet, r.type = r.byteAt 0 >>> 4 := by
      intro r; simp only [Packet.type, Packet.byteAt, Packet.word]; bits
    rw [e, e, byteAt_packetOf _ (by omega), byteAt_packetOf _ (by omega)]
    exact h
  · by_cases hb' : b < 16
    · rw [Packet.getByte_lt _ hb', Packet.getByte_lt _ hb', byteAt_packetOf _ hb', byteAt_packetOf _ hb']
      obtain ⟨b, rfl⟩ : ∃ c, b = c + 1 := ⟨b - 1, by omega⟩
      rfl
    · unfold Packet.getByte
      rw [if_neg hb', if_neg hb']

theorem nibble {g h : Byte} (hg : g < 16) (hh : h < 16) : ∀ t ∈ [(0x10 : Byte), 0x20, 0x30], (t + g) >>> 4 = (t + h) >>> 4 := by
  have k : ∀ g : Byte, g < 16 → ∀ t ∈ [(0x10 : Byte), 0x20, 0x30], (t + g) >>> 4 = t >>> 4 := by decide +kernel
  intro t ht
  rw [k g hg t ht, k h hh t ht]

theorem same_short {g h : Byte} (hg : g < 16) (hh : h < 16) (s : Byte) (d : List Byte) :
    SameEvent (.packet (shortMessage g s d)) (.packet (shortMessage h s d)) :=
  .packet (sameExcept_packetOf (by split <;> exact nibble hg hh _ (by simp)) _)

theorem same_sysex {g h : Byte} (hg : g < 16) (hh : h < 16) (f : Nat) (d : List Byte) :
    SameEvent (.packet (sysexPacket g f d)) (.packet (sysexPacket h f d)) :=
  .packet (sameExcept_packetOf (nibble hg hh _ (by simp)) _)

/-- States that differ only in groups. -/
def likeState : StreamState → StreamState → Prop
  | .idle, .idle => True
  | .message g s d, .message g' s' d' => g < 16 ∧ g' < 16 ∧ s = s' ∧ d = d'
  | .sysex g w d, .sysex g' w' d' => g < 16 ∧ g' < 16 ∧ w = w' ∧ d = d'
  | _, _ => False

theorem likeByte {g h : Byte} (hg : g < 16) (hh : h < 16) (cb on : Bool) {st st' : StreamState} (r : likeState st st') (b : Byte) :
    likeState (byteEvents ⟨g, cb, on⟩ st b).1 (byteEvents ⟨h, cb, on⟩ st' b).1 ∧
      List.Forall₂ SameEvent (byteEvents ⟨g, cb, on⟩ st b).2 (byteEvents ⟨h, cb, on⟩ st' b).2 := by
  have one : ∀ {e f : Event}, SameEvent e f → List.Forall₂ SameEvent [e] [f] := fun k => .cons k .nil
  unfold byteEvents
  by_cases h1 : b ≥ 0xF8
  · rw [if_pos h1, if_pos h1]
    refine ⟨r, ?_⟩
    dsimp only
    split
    · exact .nil
    · exact one (same_short hg hh _ _)
  rw [if_neg h1, if_neg h1]
  by_cases h2 : b < 0x80
  · rw [if_pos h2, if_pos h2]
    match st, st', r with
    | .idle, .idle, _ => exact ⟨trivial, .nil⟩
    | .message k s d, .message k' _ _, ⟨hk, hk', rfl, rfl⟩ =>
      dsimp only
      split
      · refine ⟨?_, one (same_short hk hk' _ _)⟩
        dsimp only
        split
        · exact ⟨hk, hk', rfl, rfl⟩
        · trivial
      · exact ⟨⟨hk, hk', rfl, rfl⟩, .nil⟩
    | .sysex k w d, .sysex k' _ _, ⟨hk, hk', rfl, rfl⟩ =>
      dsimp only
      split
      · exact ⟨⟨hg, hh, rfl, rfl⟩, one (same_sysex hk hk' _ _)⟩
      · exact ⟨⟨hk, hk', rfl, rfl⟩, .nil⟩
  rw [if_neg h2, if_neg h2]
  by_cases h3 : b = 0xF7
  · rw [if_pos h3, if_pos h3]
    match st, st', r with
    | .idle, .idle, _ => exact ⟨trivial, .nil⟩
    | .message k s d, .message k' _ _, ⟨hk, hk', rfl, rfl⟩ => exact ⟨trivial, .nil⟩
    | .sysex k w d, .sysex k' _ _, ⟨hk, hk', rfl, rfl⟩ =>
      refine ⟨trivial, ?_⟩
      dsimp only
      repeat' split
      all_goals first | exact .nil | exact one (.sysex _) | exact one (same_sysex hk hk' _ _)
  rw [if_neg h3, if_neg h3]
  by_cases h4 : b = 0xF0
  · rw [if_pos h4, if_pos h4]; exact ⟨⟨hg, hh, rfl, rfl⟩, .nil⟩
  rw [if_neg h4, if_neg h4]
  by_cases h5 : b = 0xF6
  · rw [if_pos h5, if_pos h5]; exact ⟨trivial, one (same_short hg hh _ _)⟩
  rw [if_neg h5, if_neg h5]
  split
  · exact ⟨trivial, .nil⟩
  · exact ⟨⟨hg, hh, rfl, rfl⟩, .nil⟩

theorem likeBytes {g h : Byte} (hg : g < 16) (hh : h < 16) (cb on : Bool) (bs : List Byte) : ∀ {st st' : StreamState},
    likeState st st' →
    likeState (stepBytes ⟨g, cb, on⟩ st bs).1 (stepBytes ⟨h, cb, on⟩ st' bs).1 ∧
      List.Forall₂ SameEvent (stepBytes ⟨g, cb, on⟩ st bs).2 (stepBytes ⟨h, cb, on⟩ st' bs).2 := by
  induction bs with
  | nil => intro st st' r; exact ⟨r, .nil⟩
  | cons b bs ih =>
    intro st st' r
    obtain ⟨r1, e1⟩ := likeByte hg hh cb on r b
    obtain ⟨r2, e2⟩ := ih r1
    refine ⟨r2, List.rel_append ?_ e2⟩
    unfold stepByte
    dsimp only
    split
    · exact e1
    · exact .nil

/-- C74: the group only shows in the group of the packets. Two parsers that differ in their groups, with the same operations except
for the groups that are set, emit the same events, one for one, except for the groups of the packets. -/
theorem C74_other_groups (g h : Byte) (cb on : Bool) (hg : g < 16) (hh : h < 16) (ops ops' : List Parser.Op)
    (hops : List.Forall₂ Regrouped ops ops') (hv : ValidGroups ops) (hv' : ValidGroups ops') :
    ∃ p q es fs, (Parser.new g cb on).run ops = .ok (p, es) ∧ (Parser.new h cb on).run ops' = .ok (q, fs) ∧
      List.Forall₂ SameEvent es fs := by
  obtain ⟨p, e⟩ := C26_parser_grammar g cb on ops hg hv
  obtain ⟨q, f⟩ := C26_parser_grammar h cb on ops' hh hv'
  refine ⟨p, q, _, _, e, f, ?_⟩
  suffices h : ∀ st st', likeState st st' →
      List.Forall₂ SameEvent (opEvents ⟨g, cb, on⟩ st ops) (opEvents ⟨h, cb, on⟩ st' ops') from h _ _ trivial
  clear e f p q
  induction hops generalizing g h on with
  | nil => intro _ _ _; exact .nil
  | @cons o o' os os' ho _ ih =>
    intro st st' r
    have hvo : ValidGroups os := fun k hk => hv k (by simp [hk])
    have hvo' : ValidGroups os' := fun k hk => hv' k (by simp [hk])
    cases ho with
    | feed bs =>
      obtain ⟨r1, e1⟩ := likeBytes hg hh cb on bs r
      exact List.rel_append e1 (ih g h on hg hh hvo hvo' _ _ r1)
    | enable on' => exact ih g h on' hg hh hvo hvo' _ _ r
    | reset => exact ih g h on hg hh hvo hvo' _ _ trivial
    | setGroup k k' => exact ih k k' on (hv k (by simp)) (hv' k' (by simp)) hvo hvo' _ _ r

/-- C74: a note, sysex and a clock in two groups, the second one with changes of the group. -/
example : ∃ p q, (Parser.new 0 false true).run [.feed [0x90, 60, 100, 0xF8], .setGroup 0, .feed [0xF0, 1, 0xF7]] = .ok (p,
      [.packet ⟨0x20903C64, 0, 0, 0⟩, .packet ⟨0x10F80000, 0, 0, 0⟩, .packet ⟨0x30010100, 0, 0, 0⟩]) ∧
    (Parser.new 7 false true).run [.feed [0x90, 60, 100, 0xF8], .setGroup 15, .feed [0xF0, 1, 0xF7]] = .ok (q,
      [.packet ⟨0x27903C64, 0, 0, 0⟩, .packet ⟨0x17F80000, 0, 0, 0⟩, .packet ⟨0x3F010100, 0, 0, 0⟩]) := ⟨_, _, rfl, rfl⟩

/-! ## C75 -/

/-- The settings and the state after bytes fed with groups, and the events. -/
def stepTimed (c : Settings) (st : StreamState) : List (Byte × Byte) → Settings × StreamState × List Event
  | [] => (c, st, [])
  | x :: l =>
    let c := { c with group := x.1 }
    let r := stepByte c st x.2
    let q := stepTimed c r.1 l
    (q.1, q.2.1, r.2 ++ q.2.2)

theorem opEvents_timed (l : List (Byte × Byte)) : ∀ c st, opEvents c st (timed l) = (stepTimed c st l).2.2 := by
  induction l with
  | nil => intro c st; rfl
  | cons x l ih =>
    intro c st
    have := ih { c with group := x.1 } (stepByte { c with group := x.1 } st x.2).1
    show [] ++ (((stepByte { c with group := x.1 } st x.2).2 ++ []) ++
      opEvents { c with group := x.1 } (stepByte { c with group := x.1 } st x.2).1 (timed l)) = _
    rw [this, List.nil_append, List.append_nil]
    rfl

theorem stepTimed_append (l m : List (Byte × Byte)) : ∀ c st, stepTimed c st (l ++ m) =
    ((stepTimed (stepTimed c st l).1 (stepTimed c st l).2.1 m).1, (stepTimed (stepTimed c st l).1 (stepTimed c st l).2.1 m).2.1,
      (stepTimed c st l).2.2 ++ (stepTimed (stepTimed c st l).1 (stepTimed c st l).2.1 m).2.2) := by
  induction l with
  | nil => intro c st; rfl
  | cons x l ih =>
    intro c st
    rw [List.cons_append, stepTimed, ih]
    simp only [stepTimed, List.append_assoc]

theorem validGroups_timed {l : List (Byte × Byte)} (h : ∀ x ∈ l, x.1 < 16) : ValidGroups (timed l) := by
  intro g hg
  simp only [timed, List.mem_flatMap, List.mem_cons, List.not_mem_nil, or_false] at hg
  obtain ⟨x, hx, h1 | h1⟩ := hg
  · rw [Parser.Op.setGroup.injEq] at h1; rw [h1]; exact h x hx
  · simp at h1

theorem run_timed (p : Parser) (hp : Reached p) {l : List (Byte × Byte)} (h : ∀ x ∈ l, x.1 < 16) :
    ∃ st p', p.run (timed l) = .ok (p', (stepTimed ⟨p.group, p.hasSysexCallback, p.invokeCallbacks⟩ st l).2.2) := by
  obtain ⟨st, r, _⟩ := reached_rel hp
  obtain ⟨p', e, _⟩ := run_rel _ r (validGroups_timed h)
  exact ⟨st, p', by rw [e, opEvents_timed]⟩

theorem stepTimed_settings (l : List (Byte × Byte)) : ∀ c st, (stepTimed c st l).1.sysexCallback = c.sysexCallback ∧
    (stepTimed c st l).1.enabled = c.enabled := by
  induction l with
  | nil => intro c st; exact ⟨rfl, rfl⟩
  | cons x l ih => intro c st; exact ih _ _

theorem timed_data (g s : Byte) : ∀ (d : List (Byte × Byte)) (e : List Byte) (c : Settings), c.enabled = true →
    (∀ x ∈ d, x.2 < 0x80) → d ≠ [] →
    e.length + d.length = dataBytes s →
    (stepTimed c (.message g s e) d).2 = (if s < 0xF0 then .message g s [] else .idle,
      [.packet (shortMessage g s (e ++ d.map Prod.snd))]) := by
  intro d
  induction d with
  | nil => intro e c _ _ h; exact absurd rfl h
  | cons x d ih =>
    intro e c hon hd _ hl
    have hx := hd x (by simp)
    rw [stepTimed, step_message _ _ _ _ hx]
    rw [List.length_cons] at hl
    by_cases h0 : d = []
    · subst h0
      rw [if_pos (by simp at hl; omega)]
      simp [stepTimed, hon]
    · have : 0 < d.length := List.length_pos_iff.2 h0
      rw [if_neg (by omega)]
      have := ih (e ++ [x.2]) { c with group := x.1 } hon (fun y hy => hd y (by simp [hy])) h0 (by simp; omega)
      dsimp only
      rw [List.nil_append, List.map_cons]
      rw [List.append_assoc] at this
      exact this

/-- C75, all messages other than sysex: a message is in the group that was set when its status byte was received, whichever group
is set before its data bytes. With running status this is the group that was set at the status byte, for all messages until
the next one. Tune requests and real time messages are in the group that is set.

Missing: sysex messages, see `C75_sysex_exactly` and `C75_sysex_false`. -/
theorem C75_message_group_partial (p : Parser) (hp : Reached p) (hon : p.invokeCallbacks = true) (g : Byte) (hg : g < 16) :
    (∀ (s : Byte) (l : List (Byte × Byte)) (ms : List (List Byte)), 0x80 ≤ s → s < 0xF0 → (∀ x ∈ l, x.1 < 16 ∧ x.2 < 0x80) →
      l.map Prod.snd = ms.flatten → (∀ m ∈ ms, m.length = dataBytes s) →
      ∃ p', p.run (timed ((g, s) :: l)) = .ok (p', ms.map fun m => .packet (shortMessage g s m))) ∧
    (∀ (s : Byte) (l : List (Byte × Byte)), s ∈ [0xF1, 0xF2, 0xF3] → (∀ x ∈ l, x.1 < 16 ∧ x.2 < 0x80) → l.length = dataBytes s →
      ∃ p', p.run (timed ((g, s) :: l)) = .ok (p', [.packet (shortMessage g s (l.map Prod.snd))])) ∧
    (∀ s ∈ [(0xF6 : Byte), 0xF8, 0xFA, 0xFB, 0xFC, 0xFE, 0xFF],
      ∃ p', p.run (timed [(g, s)]) = .ok (p', [.packet (shortMessage g s [])])) := by
  have start : ∀ (s : Byte) (l : List (Byte × Byte)), ¬ s ≥ 0xF8 → dataBytes s ≠ 0 → (∀ x ∈ l, x.1 < 16 ∧ x.2 < 0x80) →
      ∃ p', p.run (timed ((g, s) :: l)) = .ok (p', (stepTimed ⟨g, p.hasSysexCallback, true⟩ (.message g s []) l).2.2) := by
    intro s l h1 h2 hl
    obtain ⟨st, p', e⟩ := run_timed p hp (l := (g, s) :: l) (by
      intro x hx
      rw [List.mem_cons] at hx
      rcases hx with rfl | hx
      · exact hg
      · exact (hl x hx).1)
    rw [stepTimed] at e
    dsimp only at e
    rw [step_new _ _ h1 h2, hon, List.nil_append] at e
    exact ⟨p', e⟩
  refine ⟨?_, ?_, ?_⟩
  · intro s l ms h1 h2 hl hms hlen
    obtain ⟨h3, h4⟩ := cv_facts ⟨h1, h2⟩
    obtain ⟨p', e⟩ := start s l h3 h4 hl
    refine ⟨p', e.trans ?_⟩
    congr 2
    have : ∀ (ms : List (List Byte)) (l : List (Byte × Byte)) (c : Settings), c.enabled = true → (∀ x ∈ l, x.1 < 16 ∧ x.2 < 0x80) →
        l.map Prod.snd = ms.flatten → (∀ m ∈ ms, m.length = dataBytes s) →
        (stepTimed c (.message g s []) l).2.2 = ms.map fun m => .packet (shortMessage g s m) := by
      intro ms
      induction ms with
      | nil =>
        intro l c _ _ h _
        obtain rfl : l = [] := by simpa using h
        rfl
      | cons m ms ih =>
        intro l c hc hl h hlen
        have hm := hlen m (by simp)
        rw [List.flatten_cons] at h
        obtain ⟨a, b, rfl, ha, hb⟩ := List.map_eq_append_iff.1 h
        have hla : a.length = dataBytes s := by rw [← hm, ← ha, List.length_map]
        have hne : a ≠ [] := by rintro rfl; exact h4 hla.symm
        have := timed_data g s a [] c hc (fun x hx => (hl x (by simp [hx])).2) hne (by simpa using hla)
        rw [if_pos h2] at this
        rw [stepTimed_append, this]
        dsimp only
        rw [ih b _ (by rw [(stepTimed_settings _ _ _).2, hc]) (fun x hx => hl x (by simp [hx])) hb
          (fun x hx => hlen x (by simp [hx])), List.nil_append, ha]
        rfl
    exact this ms l _ rfl hl hms hlen
  · intro s l hs hl hlen
    have hs' : ¬ s ≥ 0xF8 ∧ dataBytes s ≠ 0 := by
      clear hlen hl; revert s; decide
    obtain ⟨p', e⟩ := start s l hs'.1 hs'.2 hl
    have := timed_data g s l [] ⟨g, p.hasSysexCallback, true⟩ rfl (fun x hx => (hl x hx).2)
      (by rintro rfl; exact hs'.2 hlen.symm) (by simpa using hlen)
    rw [this] at e
    exact ⟨p', e⟩
  · intro s hs
    obtain ⟨st, p', e⟩ := run_timed p hp (l := [(g, s)]) (by simpa using hg)
    refine ⟨p', e.trans ?_⟩
    rw [stepTimed]
    simp only [List.mem_cons, List.not_mem_nil, or_false] at hs
    rcases hs with rfl | hs
    · dsimp only; rw [step_tune, hon]; rfl
    · have h1 : s ≥ 0xF8 ∧ ¬ (s = 0xF9 ∨ s = 0xFD) := by rcases hs with rfl | rfl | rfl | rfl | rfl | rfl <;> decide
      dsimp only
      rw [step_rt _ _ h1.1, hon, if_neg h1.2]; rfl

/-- C75: two notes with running status. The group is changed within the first and before the second, both are in the group
of the status byte. -/
example : ∃ p, (Parser.new 0 false true).run (timed [(1, 0x90), (2, 60), (3, 100), (4, 61), (5, 101)]) = .ok (p,
    [.packet ⟨0x21903C64, 0, 0, 0⟩, .packet ⟨0x21903D65, 0, 0, 0⟩]) := ⟨_, rfl⟩

/-- Six bytes of sysex, or less. -/
theorem timed_part (g : Byte) (w : Bool) : ∀ (l : List (Byte × Byte)) (d : List Byte) (c : Settings), c.sysexCallback = false →
    (∀ x ∈ l, x.2 < 0x80) → d.length % 6 + l.length < 6 →
    (stepTimed c (.sysex g w d) l).2 = (.sysex g w (d ++ l.map Prod.snd), []) := by
  intro l
  induction l with
  | nil => intro d c _ _ _; simp [stepTimed]
  | cons x l ih =>
    intro d c hc hl h
    rw [List.length_cons] at h
    rw [stepTimed, step_sysex_packet _ _ _ _ (hl x (by simp)) (by exact hc), if_neg (by omega)]
    have := ih (d ++ [x.2]) { c with group := x.1 } hc (fun y hy => hl y (by simp [hy])) (by simp; omega)
    rw [List.append_assoc] at this
    exact this

theorem timed_block (g : Byte) (w : Bool) (l : List (Byte × Byte)) (h6 : l.length = 6) (d : List Byte) (c : Settings)
    (hc : c.sysexCallback = false) (hon : c.enabled = true) (hl : ∀ x ∈ l, x.2 < 0x80) (hd : d.length % 6 = 0) :
    (stepTimed c (.sysex g w d) l).2 = (.sysex (l[5]'(by omega)).1 w (d ++ l.map Prod.snd),
      [.packet (sysexPacket g (if d.length < 6 then 1 else 2) (l.map Prod.snd))]) := by
  obtain ⟨a, b, x, y, z, v, rfl⟩ : ∃ a b x y z v, l = [a, b, x, y, z, v] := by
    match l, h6 with
    | [a, b, x, y, z, v], _ => exact ⟨a, b, x, y, z, v, rfl⟩
  show (stepTimed c (.sysex g w d) ([a, b, x, y, z] ++ [v])).2 = (.sysex v.1 w (d ++ [a, b, x, y, z, v].map Prod.snd), _)
  rw [stepTimed_append,
    timed_part g w [a, b, x, y, z] d c hc (fun u hu => hl u (by simp at hu ⊢; tauto)) (by simp; omega)]
  dsimp only
  obtain ⟨s1, s2⟩ := stepTimed_settings [a, b, x, y, z] c (.sysex g w d)
  rw [stepTimed, step_sysex_packet _ _ _ _ (hl v (by simp)) (by rw [← hc, ← s1]), if_pos (by simp; omega)]
  dsimp only
  rw [s2, hon, if_pos rfl]
  simp only [stepTimed, List.nil_append, List.append_nil, List.map_cons, List.map_nil, List.append_assoc, List.cons_append,
    List.length_append, List.length_cons, List.length_nil]
  have hdrop : ∀ t : List Byte, (d ++ t).drop (d.length + (0 + 1 + 1 + 1 + 1 + 1) + 1 - 6) = t := by
    intro t
    rw [show d.length + (0 + 1 + 1 + 1 + 1 + 1) + 1 - 6 = d.length by omega, List.drop_left]
  rw [hdrop]
  have : (d.length + (0 + 1 + 1 + 1 + 1 + 1) < 6) = (d.length < 6) := by
    apply propext; constructor <;> intro <;> omega
  simp only [this]

theorem timed_end (g : Byte) (w : Bool) (d : List Byte) (c : Settings) (k : Byte) (hc : c.sysexCallback = false)
    (hon : c.enabled = true) : (stepTimed c (.sysex g w d) [(k, 0xF7)]).2.2 =
      if d = [] then [] else if d.length < 6 then [.packet (sysexPacket g 0 d)]
      else [.packet (sysexPacket g 3 (d.drop (d.length / 6 * 6)))] := by
  rw [stepTimed]
  dsimp only
  rw [step_end_packet { c with group := k } _ _ _ hc]
  dsimp only
  rw [hon, if_pos rfl]
  simp [stepTimed]

theorem timed_rest (w : Bool) (k : Byte) (n : Nat) : ∀ (l : List (Byte × Byte)), l.length = n → ∀ (g : Byte) (d : List Byte) (c : Settings),
    c.sysexCallback = false → c.enabled = true → (∀ x ∈ l, x.2 < 0x80) → d.length % 6 = 0 → 6 ≤ d.length →
    (stepTimed c (.sysex g w d) (l ++ [(k, 0xF7)])).2.2 = (followingPackets g l).map .packet := by
  induction n using Nat.strongRecOn with
  | _ n ih =>
    intro l hn g d c hc hon hl hd hd6
    rw [followingPackets]
    by_cases h : l.length < 6
    · rw [dif_pos h, stepTimed_append, timed_part g w l d c hc hl (by omega)]
      dsimp only
      obtain ⟨s1, s2⟩ := stepTimed_settings l c (.sysex g w d)
      rw [timed_end _ _ _ _ _ (by rw [s1, hc]) (by rw [s2, hon]), if_neg (by
        intro h0; have := congrArg List.length h0; rw [List.length_append, List.length_nil] at this; omega), if_neg (by
        rw [List.length_append]; omega)]
      have : (d ++ l.map Prod.snd).drop ((d ++ l.map Prod.snd).length / 6 * 6) = l.map Prod.snd := by
        rw [List.length_append, List.length_map, show (d.length + l.length) / 6 * 6 = d.length by omega, List.drop_left]
      rw [this]; rfl
    · rw [dif_neg h]
      conv_lhs => rw [← List.take_append_drop 6 l, List.append_assoc]
      have h6 : (l.take 6).length = 6 := by rw [List.length_take]; omega
      have ht : ∀ x ∈ l.take 6, x.2 < 0x80 := fun x hx => hl x (List.mem_of_mem_take hx)
      rw [stepTimed_append, timed_block g w (l.take 6) h6 d c hc hon ht hd]
      dsimp only
      obtain ⟨s1, s2⟩ := stepTimed_settings (l.take 6) c (.sysex g w d)
      rw [ih (l.drop 6).length (by rw [List.length_drop]; omega) (l.drop 6) rfl _ _ _ (by rw [s1, hc]) (by rw [s2, hon])
        (fun x hx => hl x (List.mem_of_mem_drop hx)) (by rw [List.length_append, List.length_map, h6]; omega)
        (by rw [List.length_append, List.length_map, h6]; omega), if_neg (by omega), List.map_cons, List.getElem_take]
      rfl

/-- C75, exactly what happens to sysex in packet mode: the first packet is in the group that was set at the start of sysex, every
other packet in the group that was set when the last byte of the packet before was fed (which is not the group set when its own
bytes are fed). -/
theorem C75_sysex_exactly (p : Parser) (hp : Reached p) (hon : p.invokeCallbacks = true) (hcb : p.hasSysexCallback = false)
    (g k : Byte) (hg : g < 16) (hk : k < 16) (l : List (Byte × Byte)) (hl : ∀ x ∈ l, x.1 < 16 ∧ x.2 < 0x80) :
    ∃ p', p.run (timed ((g, 0xF0) :: l ++ [(k, 0xF7)])) = .ok (p', (timedPackets g l).map .packet) := by
  obtain ⟨st, p', e⟩ := run_timed p hp (l := (g, 0xF0) :: l ++ [(k, 0xF7)]) (by
    intro x hx
    simp only [List.cons_append, List.mem_cons, List.mem_append, List.not_mem_nil, or_false] at hx
    rcases hx with rfl | hx | rfl
    · exact hg
    · exact (hl x hx).1
    · exact hk)
  refine ⟨p', e.trans ?_⟩
  congr 2
  rw [List.cons_append, stepTimed]
  dsimp only
  rw [step_start, hon, hcb, List.nil_append]
  dsimp only
  have hl' : ∀ x ∈ l, x.2 < 0x80 := fun x hx => (hl x hx).2
  rw [timedPackets]
  by_cases h : l.length < 6
  · obtain ⟨s1, s2⟩ := stepTimed_settings l ⟨g, false, true⟩ (.sysex g true [])
    rw [dif_pos h, stepTimed_append, timed_part g true l [] _ rfl hl' (by simpa using h)]
    dsimp only
    rw [timed_end _ _ _ _ _ s1 s2, List.nil_append, List.nil_append]
    by_cases h0 : l = []
    · subst h0; rfl
    · rw [if_neg (by simpa using h0), if_neg h0, if_pos (by simpa using h)]; rfl
  · rw [dif_neg h]
    conv_lhs => rw [← List.take_append_drop 6 l, List.append_assoc]
    have h6 : (l.take 6).length = 6 := by rw [List.length_take]; omega
    have ht : ∀ x ∈ l.take 6, x.2 < 0x80 := fun x hx => hl' x (List.mem_of_mem_take hx)
    rw [stepTimed_append, timed_block g true (l.take 6) h6 [] _ rfl rfl ht rfl]
    dsimp only
    obtain ⟨s1, s2⟩ := stepTimed_settings (l.take 6) ⟨g, false, true⟩ (.sysex g true [])
    rw [timed_rest true k (l.drop 6).length (l.drop 6) rfl _ _ _ s1 s2
        (fun x hx => hl' x (List.mem_of_mem_drop hx)) (by rw [List.nil_append, List.length_map, h6]) (by rw [List.nil_append, List.length_map, h6]),
        if_pos (by simp), List.map_cons, List.getElem_take]
    rfl

/-- C75 is false of sysex: if the group is changed while it is received, the packets of one message are in different groups. -/
theorem C75_sysex_false : ∃ p, (Parser.new 0 false true).run [.feed [0xF0, 1, 2, 3], .setGroup 5, .feed [4, 5, 6, 7, 0xF7]] = .ok (p,
    [.packet ⟨0x30160102, 0x03040506, 0, 0⟩, .packet ⟨0x35310700, 0, 0, 0⟩]) := ⟨_, rfl⟩

/-- C75: a group set while a packet is filled counts for the packet behind, not for this one. -/
example : timedPackets 0 [(1, 1), (2, 2), (3, 3), (4, 4), (5, 5), (6, 6), (7, 7)] =
    [⟨0x30160102, 0x03040506, 0, 0⟩, ⟨0x36310700, 0, 0, 0⟩] := by
  rw [timedPackets, dif_neg (by decide), followingPackets, dif_pos (by decide)]; decide +kernel

end Midi
