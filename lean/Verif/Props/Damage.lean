import Verif.Props.OutputCount
import Verif.Spec.Damage

/-!
# C80: damaged messages do not affect intact ones
-/

namespace Midi
open Spec

theorem feedAll7_append (a b : List Packet) : ∀ {c d e : Collector7} {x y : List Sysex}, c.feedAll a = .ok (d, x) →
    d.feedAll b = .ok (e, y) → c.feedAll (a ++ b) = .ok (e, x ++ y) := by
  induction a with
  | nil => intro c d e x y h1 h2; cases h1; exact h2
  | cons p a ih =>
    intro c d e x y h1 h2
    rw [Collector7.feedAll] at h1
    rw [List.cons_append, Collector7.feedAll]
    cases hf : c.feed p with
    | error _ => rw [hf] at h1; cases h1
    | ok r =>
      rw [hf] at h1
      simp only [ok_bind] at h1 ⊢
      cases hg : r.1.feedAll a with
      | error _ => rw [hg] at h1; cases h1
      | ok s =>
        rw [hg] at h1
        simp only [ok_bind] at h1
        cases h1
        rw [ih hg h2]
        simp [pure_eq_ok]

theorem feedAll8_append (a b : List Packet) : ∀ {c d e : Collector8} {x y : List (Sysex × Byte)}, c.feedAll a = .ok (d, x) →
    d.feedAll b = .ok (e, y) → c.feedAll (a ++ b) = .ok (e, x ++ y) := by
  induction a with
  | nil => intro c d e x y h1 h2; cases h1; exact h2
  | cons p a ih =>
    intro c d e x y h1 h2
    rw [Collector8.feedAll] at h1
    rw [List.cons_append, Collector8.feedAll]
    cases hf : c.feed p with
    | error _ => rw [hf] at h1; cases h1
    | ok r =>
      rw [hf] at h1
      simp only [ok_bind] at h1 ⊢
      cases hg : r.1.feedAll a with
      | error _ => rw [hg] at h1; cases h1
      | ok s =>
        rw [hg] at h1
        simp only [ok_bind] at h1
        cases h1
        rw [ih hg h2]
        simp [pure_eq_ok]

/-- The parts of a list of traffic. -/
theorem mapM_cons_ok {α β : Type} {f : α → Except Fault β} {a : α} {l : List α} {r : List β} (h : (a :: l).mapM f = .ok r) :
    ∃ x r', f a = .ok x ∧ l.mapM f = .ok r' ∧ r = x :: r' := by
  rw [List.mapM_cons] at h
  cases hx : f a with
  | error _ => rw [hx] at h; cases h
  | ok x =>
    rw [hx, ok_bind] at h
    cases hr : l.mapM f with
    | error _ => rw [hr] at h; cases h
    | ok r' => rw [hr] at h; cases h; exact ⟨x, r', rfl, rfl, rfl⟩

/-- C80: a sysex7 collector without size limit is fed the packets of messages, some of which are damaged in whatever way, with packets of
other kinds anywhere: every intact message is delivered exactly as it was sent and in order, and a damaged one causes at most one message
for each of its complete and end packets. -/
theorem C80_collector7 (ts : List Traffic7) (hts : ∀ m g, .intact m g ∈ ts → Sendable7 (m, g)) (sent : List (List Packet))
    (hs : ts.mapM Traffic7.packets = .ok sent) (qs : List Packet)
    (hq : qs.filter (fun p => decide (IsSysex7 p)) = sent.flatten.filter (fun p => decide (IsSysex7 p))) :
    ∃ c outs, ({} : Collector7).feedAll qs = .ok (c, outs.flatten) ∧ List.Forall₂ Traffic7.delivers ts outs := by
  have key : ∀ (ts : List Traffic7), (∀ m g, .intact m g ∈ ts → Sendable7 (m, g)) → ∀ (sent : List (List Packet)),
      ts.mapM Traffic7.packets = .ok sent → ∀ (hist : List Packet) (c : Collector7) (before : List Sysex),
      ({} : Collector7).feedAll hist = .ok (c, before) →
      ∃ c' outs, c.feedAll sent.flatten = .ok (c', outs.flatten) ∧ List.Forall₂ Traffic7.delivers ts outs := by
    intro ts
    induction ts with
    | nil =>
      intro _ sent hs hist c before _
      cases hs
      exact ⟨c, [], rfl, .nil⟩
    | cons t ts ih =>
      intro hts sent hs hist c before hc
      obtain ⟨ps, sent', h1, h2, rfl⟩ := mapM_cons_ok hs
      have head : ∃ d out, c.feedAll ps = .ok (d, out) ∧ t.delivers out := by
        cases t with
        | intact m g =>
          obtain ⟨d, before', d', e1, e2⟩ := C18_sysex7_round_trip hist [(m, g)] (by simpa using hts m g (by simp)) [ps]
            (by rw [List.mapM_cons, show sendSysex7 m g = _ from h1]; rfl) ps (by
              obtain ⟨s, e, hf⟩ := C18_send_succeeds [(m, g)] (by simpa using hts m g (by simp))
              rw [List.mapM_cons, show sendSysex7 m g = _ from h1] at e
              cases e; simpa using hf)
          rw [hc] at e1; cases e1
          exact ⟨d', _, e2, rfl⟩
        | damaged qs =>
          obtain rfl : qs = ps := Except.ok.inj h1
          obtain ⟨d, out, e, -⟩ := C21_never_faults qs c
          exact ⟨d, out, e, C79_collector7 qs c d out e⟩
      obtain ⟨d, out, e1, h3⟩ := head
      obtain ⟨d', outs, e2, h4⟩ := ih (fun m g h => hts m g (List.mem_cons_of_mem _ h)) sent' h2 (hist ++ ps) d _ (feedAll7_append _ _ hc e1)
      exact ⟨d', out :: outs, feedAll7_append _ _ e1 e2, .cons h3 h4⟩
  obtain ⟨c, outs, e, h⟩ := key ts hts sent hs [] {} [] rfl
  obtain ⟨c1, e1⟩ := C21_collector_decodes qs
  obtain ⟨c2, e2⟩ := C21_collector_decodes sent.flatten
  rw [e] at e2
  refine ⟨c1, outs, ?_, h⟩
  have hi : items7 qs = items7 sent.flatten := by unfold items7; rw [hq]
  rw [e1, hi, (Prod.mk.inj (Except.ok.inj e2)).2]

example := C80_collector7 [.intact ⟨0x7E0000, [1, 2]⟩ 3] (by intro m g h; simp at h; obtain ⟨rfl, rfl⟩ := h; decide) _ rfl
  [⟨0x33037E01, 0x02000000, 0, 0⟩] (by decide +kernel)

/-- C80: a sysex8 collector likewise, for the messages `send_sysex8` frames correctly (see C19). -/
theorem C80_collector8 (ts : List Traffic8) (hts : ∀ m s g, .intact m s g ∈ ts → Sendable8 (m, s, g)) (sent : List (List Packet))
    (hs : ts.mapM Traffic8.packets = .ok sent) (qs : List Packet)
    (hq : qs.filter (fun p => decide (IsSysex8 p)) = sent.flatten.filter (fun p => decide (IsSysex8 p))) :
    ∃ c outs, ({} : Collector8).feedAll qs = .ok (c, outs.flatten) ∧ List.Forall₂ Traffic8.delivers ts outs := by
  have key : ∀ (ts : List Traffic8), (∀ m s g, .intact m s g ∈ ts → Sendable8 (m, s, g)) → ∀ (sent : List (List Packet)),
      ts.mapM Traffic8.packets = .ok sent → ∀ (hist : List Packet) (c : Collector8) (before : List (Sysex × Byte)),
      ({} : Collector8).feedAll hist = .ok (c, before) →
      ∃ c' outs, c.feedAll sent.flatten = .ok (c', outs.flatten) ∧ List.Forall₂ Traffic8.delivers ts outs := by
    intro ts
    induction ts with
    | nil =>
      intro _ sent hs hist c before _
      cases hs
      exact ⟨c, [], rfl, .nil⟩
    | cons t ts ih =>
      intro hts sent hs hist c before hc
      obtain ⟨ps, sent', h1, h2, rfl⟩ := mapM_cons_ok hs
      have head : ∃ d out, c.feedAll ps = .ok (d, out) ∧ t.delivers out := by
        cases t with
        | intact m s g =>
          obtain ⟨d, before', d', e1, e2⟩ := C20_sysex8_round_trip_partial hist [(m, s, g)] (by simpa using hts m s g (by simp)) [ps]
            (by rw [List.mapM_cons, show sendSysex8 m s g = _ from h1]; rfl) ps (by
              obtain ⟨s, e, hf⟩ := C20_send_succeeds (m, s, g) (hts m s g (by simp))
              rw [show sendSysex8 m _ g = _ from h1] at e
              cases e; simpa using hf)
          rw [hc] at e1; cases e1
          exact ⟨d', _, e2, rfl⟩
        | damaged qs =>
          obtain rfl : qs = ps := Except.ok.inj h1
          obtain ⟨d, out, e, -⟩ := C24_never_faults qs c
          exact ⟨d, out, e, C79_collector8 qs c d out e⟩
      obtain ⟨d, out, e1, h3⟩ := head
      obtain ⟨d', outs, e2, h4⟩ := ih (fun m s g h => hts m s g (List.mem_cons_of_mem _ h)) sent' h2 (hist ++ ps) d _
        (feedAll8_append _ _ hc e1)
      exact ⟨d', out :: outs, feedAll8_append _ _ e1 e2, .cons h3 h4⟩
  obtain ⟨c, outs, e, h⟩ := key ts hts sent hs [] {} [] rfl
  obtain ⟨c1, e1⟩ := C24_collector_decodes qs
  obtain ⟨c2, e2⟩ := C24_collector_decodes sent.flatten
  rw [e] at e2
  refine ⟨c1, outs, ?_, h⟩
  have hi : items8 qs = items8 sent.flatten := by unfold items8; rw [hq]
  rw [e1, hi, (Prod.mk.inj (Except.ok.inj e2)).2]

/-- Without real time bytes there are no real time events. -/
theorem no_realtime {p p' : Parser} (hp : Reached p) {bs : List Byte} (hb : ∀ b ∈ bs, b < 0xF8) {es : List Event}
    (e : p.feedAll bs = .ok (p', es)) : es.filter (fun e => !isRealTime e) = es := by
  obtain ⟨p1, es1, h1, h2, -⟩ := C27_realtime_transparent p hp bs
  rw [List.filter_eq_self.2 fun b h => by simpa using hb b h, h1] at h2
  rw [e] at h1
  cases h1
  exact ((Prod.mk.inj (Except.ok.inj h2)).2).symm

/-- C80: a byte stream parser, with or without sysex callback, that was used in any way before, is fed the bytes of messages, some of which
are damaged in whatever way: every intact message causes exactly what it would cause alone, and a damaged one causes at most one
callback for each of its bytes. -/
theorem C80_parser (p : Parser) (hp : Reached p) (hon : p.invokeCallbacks = true) (ts : List TrafficBytes)
    (hts : ∀ q, .intact q ∈ ts → WellFormed1 [p.group] q ∧ IsShort q) (htx : ∀ m, .sysex m ∈ ts → Sendable7 (m, 0)) :
    ∃ p' outs, p.feedAll (ts.flatMap TrafficBytes.bytes) = .ok (p', outs.flatten) ∧
      List.Forall₂ (TrafficBytes.delivers p.hasSysexCallback) ts outs := by
  induction ts generalizing p with
  | nil => exact ⟨p, [], rfl, .nil⟩
  | cons t ts ih =>
    have head : ∃ d out, p.feedAll t.bytes = .ok (d, out) ∧ t.delivers p.hasSysexCallback out := by
      cases t with
      | intact q =>
        obtain ⟨bss, d, e1, e2⟩ := C33_parse_back p hp hon [q] (by simpa using hts q (by simp))
        obtain ⟨x, r, f1, f2, rfl⟩ := mapM_cons_ok e1
        cases f2
        rw [(C33_to_byte_stream q).1] at f1
        cases f1
        exact ⟨d, _, by simpa [TrafficBytes.bytes] using e2, rfl⟩
      | sysex m =>
        obtain ⟨hid, hd, -⟩ := htx m (by simp)
        have hall : ∀ b ∈ idBytes7 m.manufacturerID ++ m.data, b < 0x80 := by
          intro b hb
          rcases List.mem_append.1 hb with h | h
          · exact idBytes7_lt hid b h
          · exact hd b h
        have hlt : ∀ b ∈ idBytes7 m.manufacturerID ++ m.data, b < 0xF8 := fun b hb => Nat.lt_trans (hall b hb) (by decide)
        have hrt : ∀ b ∈ 0xF0 :: (idBytes7 m.manufacturerID ++ m.data ++ [0xF7]), b < 0xF8 := by
          intro b hb
          rcases List.mem_cons.1 hb with rfl | hb
          · decide
          rcases List.mem_append.1 hb with hb | hb
          · exact hlt b hb
          · rw [List.mem_singleton.1 hb]; decide
        have hfil : (idBytes7 m.manufacturerID ++ m.data).filter (fun b => decide (b < 0xF8)) = idBytes7 m.manufacturerID ++ m.data :=
          List.filter_eq_self.2 fun b hb => by simpa using hlt b hb
        cases hcb : p.hasSysexCallback with
        | true =>
          obtain ⟨d, es, e, hes, -⟩ := C30_sysex_callback p hp hcb hon m hid hd _ hfil
          rw [no_realtime hp hrt e] at hes
          exact ⟨d, es, e, hes⟩
        | false =>
          obtain ⟨d, es, ps, e, hes, h1, h2, h3, -⟩ := C29_sysex_packets p hp hcb hon _ _ hfil hall
          rw [no_realtime hp hrt e] at hes
          rw [if_neg ?_] at h3
          · exact ⟨d, es, e, ps, hes, fun q hq => (h1 q hq).1, h3, h2⟩
          · unfold idBytes7; split <;> simp
      | damaged bs =>
        obtain ⟨st, r, hg⟩ := reached_rel hp
        obtain ⟨d, e, -⟩ := feedAll_rel bs r
        exact ⟨d, _, e, C79_parser bs p d _ e⟩
    obtain ⟨d, out, e1, h3⟩ := head
    have hset : d.group = p.group ∧ d.hasSysexCallback = p.hasSysexCallback ∧ d.invokeCallbacks = p.invokeCallbacks := by
      obtain ⟨st, r, hg⟩ := reached_rel hp
      obtain ⟨d', e, r'⟩ := feedAll_rel t.bytes r
      rw [e1] at e
      cases e
      exact ⟨r'.group, r'.cb, r'.on⟩
    obtain ⟨d', outs, e2, h4⟩ := ih d (hp.feedAll e1) (hset.2.2.trans hon)
      (fun q hq => by rw [hset.1]; exact hts q (List.mem_cons_of_mem _ hq)) (fun m hm => htx m (List.mem_cons_of_mem _ hm))
    rw [hset.2.1] at h4
    refine ⟨d', out :: outs, ?_, .cons h3 h4⟩
    rw [List.flatMap_cons, feedAll_append, e1]
    show (d.feedAll _).map _ = _
    rw [e2]; rfl

/-! A message whose end packet is lost, another one whose start packet is lost (the collector makes one message of the rest of both), and
an intact one; a byte stream with a lost data byte. -/

example : ∃ c, ({} : Collector7).feedAll ([⟨0x30167E01, 0x02030405, 0, 0⟩] ++ [⟨0x30310900, 0, 0, 0⟩] ++ [⟨0x30037D01, 0x02000000, 0, 0⟩]) =
    .ok (c, [⟨0x7E0000, [1, 2, 3, 4, 5, 9]⟩, ⟨0x7D0000, [1, 2]⟩]) := ⟨_, rfl⟩

example : ∃ sent, [Traffic7.damaged [⟨0x30167E01, 0x02030405, 0, 0⟩], .damaged [⟨0x30310900, 0, 0, 0⟩], .intact ⟨0x7D0000, [1, 2]⟩ 0].mapM
    Traffic7.packets = .ok sent ∧ Sendable7 (⟨0x7D0000, [1, 2]⟩, 0) := ⟨_, rfl, by decide⟩

example : ∃ p, (Parser.new 0 true true).feedAll
    ([TrafficBytes.damaged [0x90, 0x40], .intact ⟨0x20B00740, 0, 0, 0⟩, .damaged [0xF0, 0x7E], .sysex ⟨0x7D0000, [1]⟩].flatMap TrafficBytes.bytes) =
      .ok (p, [.packet ⟨0x20B00740, 0, 0, 0⟩, .sysex ⟨0x7D0000, [1]⟩]) := ⟨_, rfl⟩

end Midi
