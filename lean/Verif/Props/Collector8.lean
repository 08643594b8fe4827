import Verif.Lemmas.Collector8
import Verif.Props.Collector7

/-!
# C20, C22, C23, C24: the sysex8 collector
-/

namespace Midi
open Spec

/-! ## Auxiliary facts -/

theorem rel8_fresh : Rel8 0 {} (false, 0, []) := ⟨rfl, rfl, rfl, Nat.le_refl _, rfl, Or.inl rfl, rfl⟩

theorem rel8_limit {lim n : Nat} {c : Collector8} {st : St8} (h : Rel8 lim c st) (hn : n ≠ 0)
    (hc : c.capacity ≤ n) : Rel8 n (c.setMaxSize n) st := by
  obtain ⟨h1, h2, hs, h3, h4, h5, h6⟩ := h
  unfold Collector8.setMaxSize
  rw [if_pos hn]
  refine ⟨h1, h2, hs, ?_, rfl, Or.inr ?_, h6⟩
  · simp only [vecReserve]; omega
  · simp only [vecReserve]; omega

theorem items8_codes (ps : List Packet) : ∀ x ∈ items8 ps, x.1 ≤ 3 := by
  intro x hx
  simp only [items8, List.mem_map, List.mem_filter, decide_eq_true_eq] at hx
  obtain ⟨p, ⟨_, hp⟩, rfl⟩ := hx
  exact hp.2.1

theorem items8_all {ps : List Packet} (h : ∀ p ∈ ps, IsSysex8 p) :
    items8 ps = ps.map fun p => (formatCode p, stream8 p, payload8 p) := by
  unfold items8
  rw [List.filter_eq_self.2]
  intro p hp
  exact decide_eq_true (h p hp)

/-- The payload of an item. -/
theorem flatMap_items8 (ps : List Packet) :
    (ps.map fun p => (formatCode p, stream8 p, payload8 p)).flatMap (fun it => it.2.2) = ps.flatMap payload8 := by
  rw [List.flatMap_map]

theorem map_fst_items8 (ps : List Packet) :
    (ps.map fun p => (formatCode p, stream8 p, payload8 p)).map Prod.fst = ps.map formatCode := by
  rw [List.map_map]; rfl

/-! ## C24 -/

/-- C24: whatever packets are fed into a new collector, the messages delivered, and the stream ids reported, are exactly
those of the reference decoder. No packet causes a fault. -/
theorem C24_collector_decodes (ps : List Packet) :
    ∃ c, ({} : Collector8).feedAll ps = .ok (c, (decode8 (items8 ps)).map fun m => (message8 m.1, m.2)) := by
  obtain ⟨c, h, _⟩ := feedAll8_rel ps rel8_fresh
  exact ⟨c, by rw [h, (absRun8_decode _ (items8_codes ps)).1]⟩

/-- C24: a start packet and an end packet of stream 7 with a packet of stream 8 in between. -/
example : ∃ c, ({} : Collector8).feedAll [⟨0x50140700, 0x7E010000, 0, 0⟩, ⟨0x50340833, 0x44550000, 0, 0⟩,
    ⟨0x503307FF, 0x80000000, 0, 0⟩] = .ok (c, [(⟨0x7E0000, [1, 0xFF, 0x80]⟩, 7)]) := ⟨_, rfl⟩

example : decode8 [(1, 7, [0, 0x7E, 1]), (3, 8, [0x33, 0x44, 0x55]), (3, 7, [0xFF, 0x80])] =
    [([0, 0x7E, 1, 0xFF, 0x80], 7)] := by
  rw [decode8_start]; simp [takeRun8, decode8]

/-- What `takeRun8` takes: the payloads of one stream. -/
theorem takeRun8_spec (s : Byte) (l : List Item8) : ∀ (d : List Byte) (q : List Byte × List Item8),
    takeRun8 s d l = some q →
    ∃ pre, l = pre ++ q.2 ∧ q.1 = d ++ (pre.filter fun it => it.2.1 == s).flatMap fun it => it.2.2 := by
  induction l with
  | nil => intro d q h; simp [takeRun8] at h
  | cons x r ih =>
    intro d q h
    obtain ⟨c, t, e⟩ := x
    unfold takeRun8 at h
    split at h
    · next heq =>
      simp only [List.cons.injEq, Prod.mk.injEq] at heq
      obtain ⟨⟨rfl, rfl, rfl⟩, rfl⟩ := heq
      split at h
      · next ht =>
        obtain ⟨pre, h1, h2⟩ := ih _ _ h
        exact ⟨(2, t, e) :: pre, by rw [h1]; rfl, by rw [h2]; simp [ht]⟩
      · next ht =>
        obtain ⟨pre, h1, h2⟩ := ih _ _ h
        exact ⟨(2, t, e) :: pre, by rw [h1]; rfl, by rw [h2]; simp [ht]⟩
    · next heq =>
      simp only [List.cons.injEq, Prod.mk.injEq] at heq
      obtain ⟨⟨rfl, rfl, rfl⟩, rfl⟩ := heq
      split at h
      · next ht =>
        obtain rfl := Option.some.inj h
        exact ⟨[(3, t, e)], rfl, by simp [ht]⟩
      · next ht =>
        obtain ⟨pre, h1, h2⟩ := ih _ _ h
        exact ⟨(3, t, e) :: pre, by rw [h1]; rfl, by rw [h2]; simp [ht]⟩
    · simp at h

theorem decode8_own_stream (l : List Item8) : ∀ m ∈ decode8 l,
    m.1 <:+: (l.filter fun it => it.2.1 == m.2).flatMap fun it => it.2.2 := by
  have step : ∀ (x : Item8) (r : List Item8) (m : List Byte × Byte),
      m.1 <:+: ((r.filter fun it => it.2.1 == m.2).flatMap fun it => it.2.2) →
      m.1 <:+: (((x :: r).filter fun it => it.2.1 == m.2).flatMap fun it => it.2.2) := by
    intro x r m h
    rw [List.filter_cons]
    split
    · rw [List.flatMap_cons]
      exact h.trans (List.suffix_append _ _).isInfix
    · exact h
  induction l using decode8.induct with
  | case1 => intro m h; simp [decode8] at h
  | case2 s d r ih =>
    intro m h
    rw [decode8, List.mem_cons] at h
    rcases h with rfl | h
    · simp only [List.filter_cons, beq_self_eq_true, if_true, List.flatMap_cons]
      exact (List.prefix_append _ _).isInfix
    · exact step _ _ _ (ih m h)
  | case3 s d r q hq ih =>
    intro m h
    rw [decode8_start, hq] at h
    obtain ⟨pre, h1, h2⟩ := takeRun8_spec s r d q hq
    rcases List.mem_cons.1 h with rfl | h
    · rw [h1, h2]
      simp only [List.filter_cons, beq_self_eq_true, if_true, List.flatMap_cons, List.filter_append, List.flatMap_append]
      rw [← List.append_assoc]
      exact (List.prefix_append _ _).isInfix
    · refine step _ _ _ ?_
      rw [h1]
      simp only [List.filter_append, List.flatMap_append]
      exact (ih m h).trans (List.suffix_append _ _).isInfix
  | case4 s d r hq ih =>
    intro m h
    rw [decode8_start, hq] at h
    exact step _ _ _ (ih m h)
  | case5 x r h0 h1 ih =>
    intro m h
    obtain ⟨c, t, e⟩ := x
    rw [decode8] at h
    · exact step _ _ _ (ih m h)
    · exact h0
    · exact h1

/-- C24: every message delivered consists only of consecutive payload of the packets with the reported stream id. -/
theorem C24_only_own_stream (ps : List Packet) (c : Collector8) (out : List (Sysex × Byte))
    (h : ({} : Collector8).feedAll ps = .ok (c, out)) : ∀ m ∈ out,
    ∃ pl, m.1 = message8 pl ∧ pl <:+: (ps.filter fun p => decide (IsSysex8 p) && (stream8 p == m.2)).flatMap payload8 := by
  obtain ⟨c', h'⟩ := C24_collector_decodes ps
  rw [h'] at h
  obtain ⟨_, rfl⟩ := Prod.mk.inj (Except.ok.inj h)
  intro m hm
  rw [List.mem_map] at hm
  obtain ⟨x, hx, rfl⟩ := hm
  refine ⟨x.1, rfl, ?_⟩
  have := decode8_own_stream _ x hx
  unfold items8 at this
  rw [List.filter_map, List.flatMap_map, List.filter_filter] at this
  simpa [Function.comp_def, Bool.and_comm] using this

/-- Packets of a running message with packets of other streams in between. -/
theorem absRun8_interleaved (s : Byte) (its : List Item8) : ∀ (n : Nat) (pl : List Byte),
    ((its.filter fun it => it.2.1 == s).map Prod.fst = List.replicate n 2 ++ [3]) →
    (∀ it ∈ its, 2 ≤ it.1) →
    (absRun8 0 (true, s, pl) its).2 = [(pl ++ (its.filter fun it => it.2.1 == s).flatMap fun it => it.2.2, s)] := by
  have idle : ∀ (its : List Item8), (∀ it ∈ its, 2 ≤ it.1) → ∀ pl s, (absRun8 0 (false, s, pl) its).2 = [] := by
    intro its
    induction its with
    | nil => intro _ pl s; rfl
    | cons x its ih =>
      intro h pl s
      have hx : ¬ x.1 ≤ 1 := by have := h x (by simp); omega
      simp [absRun8, abs8, if_neg hx, ih fun y hy => h y (by simp [hy])]
  induction its with
  | nil => intro n pl h; simp at h
  | cons x its ih =>
    intro n pl h hc
    have hx : ¬ x.1 ≤ 1 := by have := hc x (by simp); omega
    have hc' : ∀ y ∈ its, 2 ≤ y.1 := fun y hy => hc y (by simp [hy])
    obtain ⟨c, t, e⟩ := x
    by_cases ht : t = s
    · subst ht
      rw [List.filter_cons] at h ⊢
      simp only [beq_self_eq_true, if_true, List.map_cons, List.flatMap_cons] at h ⊢
      match n with
      | 0 =>
        rw [List.replicate_zero, List.nil_append, List.cons.injEq] at h
        obtain ⟨rfl, h⟩ := h
        rw [List.map_eq_nil_iff] at h
        rw [h]
        simp [absRun8, abs8, absAdd8, fits_zero, idle its hc']
      | n + 1 =>
        rw [List.replicate_succ, List.cons_append, List.cons.injEq] at h
        obtain ⟨rfl, h⟩ := h
        have hr := ih n (pl ++ e) h hc'
        simp [absRun8, abs8, absAdd8, fits_zero, hr]
    · have hb : (t == s) = false := by simpa using ht
      rw [List.filter_cons] at h ⊢
      simp only [hb, Bool.false_eq_true, if_false] at h ⊢
      have hr := ih n pl h hc'
      simp only [absRun8, abs8, if_neg hx]
      simp [ht, hr]

/-- C24: continue and end packets of other streams do not disturb a running message: a start packet followed by anything
that contains, as packets of the same stream, continue packets and an end packet, and otherwise no start or complete
packet, is delivered as one message with the payload of that stream; whatever the collector was fed before. -/
theorem C24_other_streams_ignored (hist : List Packet) (p : Packet) (qs : List Packet) (n : Nat)
    (hp : IsSysex8 p) (hp1 : formatCode p = 1)
    (hq : (qs.filter fun q => decide (IsSysex8 q) && (stream8 q == stream8 p)).map formatCode = List.replicate n 2 ++ [3])
    (ho : ∀ q ∈ qs, IsSysex8 q → 2 ≤ formatCode q) :
    ∃ c before c', ({} : Collector8).feedAll hist = .ok (c, before) ∧ c.feedAll (p :: qs) =
      .ok (c', [(message8 (payload8 p ++
        (qs.filter fun q => decide (IsSysex8 q) && (stream8 q == stream8 p)).flatMap payload8), stream8 p)]) := by
  obtain ⟨c, h1, hrel⟩ := feedAll8_rel hist rel8_fresh
  obtain ⟨c', h2, _⟩ := feedAll8_rel (p :: qs) hrel
  refine ⟨c, _, c', h1, ?_⟩
  rw [h2, items8_cons_pos qs hp, hp1]
  have hclean := absRun8_clean (items8 hist) (false, 0, []) (Or.inr rfl)
  generalize (absRun8 0 (false, 0, []) (items8 hist)).1 = st at hclean ⊢
  have hb : (if st.1 = true then [] else st.2.2) = ([] : List Byte) := by
    rcases hclean with h | h
    · rw [if_pos h]
    · rw [h]; simp
  have hf : (items8 qs).filter (fun it => it.2.1 == stream8 p) =
      (qs.filter fun q => decide (IsSysex8 q) && (stream8 q == stream8 p)).map fun q => (formatCode q, stream8 q, payload8 q) := by
    unfold items8
    rw [List.filter_map, List.filter_filter]
    simp [Bool.and_comm]
  have hi := absRun8_interleaved (stream8 p) (items8 qs) n (payload8 p)
    (by rw [hf, map_fst_items8]; exact hq)
    (by
      intro it hit
      simp only [items8, List.mem_map, List.mem_filter, decide_eq_true_eq] at hit
      obtain ⟨q, ⟨hq1, hq2⟩, rfl⟩ := hit
      exact ho q hq1 hq2)
  rw [hf, flatMap_items8] at hi
  have h1 : absRun8 0 st ((1, stream8 p, payload8 p) :: items8 qs) =
      ((absRun8 0 (true, stream8 p, payload8 p) (items8 qs)).1, (absRun8 0 (true, stream8 p, payload8 p) (items8 qs)).2) := by
    simp [absRun8, abs8, absAdd8, hb, fits_zero]
  rw [h1, hi]
  rfl

example : let p : Packet := ⟨0x50140700, 0x7E010000, 0, 0⟩
    let qs : List Packet := [⟨0x50340833, 0x44550000, 0, 0⟩, ⟨0x503307FF, 0x80000000, 0, 0⟩, ⟨0x20903C7F, 0, 0, 0⟩]
    IsSysex8 p ∧ formatCode p = 1 ∧
    (qs.filter fun q => decide (IsSysex8 q) && (stream8 q == stream8 p)).map formatCode = List.replicate 0 2 ++ [3] ∧
    (∀ q ∈ qs, IsSysex8 q → 2 ≤ formatCode q) := by decide

theorem collectLoop8_ok (p : Packet) (n : Nat) : ∀ (b : Nat) (c : Collector8), 3 + b + n ≤ 16 →
    ∃ d, c.collectLoop p b n = .ok d ∧ d.hasCallback = c.hasCallback := by
  induction n with
  | zero => intro b c _; exact ⟨c, rfl, rfl⟩
  | succ n ih =>
    intro b c hb
    unfold Collector8.collectLoop
    rw [sysex8PayloadByte, Packet.getByte_lt _ (by omega), ok_bind]
    obtain ⟨d, hd, hcb⟩ := ih (b + 1) (c.collect (p.byteAt (3 + b))) (by omega)
    refine ⟨d, hd, ?_⟩
    rw [hcb]
    unfold Collector8.collect
    split
    · split <;> rfl
    · rfl
    · rfl
    · rfl
    · rfl

theorem feed8_ok (c : Collector8) (p : Packet) :
    ∃ d out, c.feed p = .ok (d, out) ∧ d.hasCallback = c.hasCallback ∧ (c.hasCallback = false → out = []) := by
  have pay : ∀ c : Collector8, isSysex8Packet p = true →
      ∃ d out, c.feedPayload p = .ok (d, out) ∧ d.hasCallback = c.hasCallback ∧ (c.hasCallback = false → out = []) := by
    intro c hb
    have hn : sysex8PayloadSize p ≤ 13 := (C16_view_payload p hb).1
    unfold Collector8.feedPayload
    dsimp only
    generalize ensureCapacity c.capacity c.maxSize c.sysex.data.length (sysex8PayloadSize p) = ec
    obtain ⟨cap, acc⟩ := ec
    dsimp only
    cases acc
    · exact ⟨_, _, rfl, rfl, fun _ => rfl⟩
    · obtain ⟨d, hd, hcb⟩ := collectLoop8_ok p (sysex8PayloadSize p) 0 { c with capacity := cap } (by omega)
      rw [hd]
      simp only [Bool.not_true, Bool.false_eq_true, if_false, ok_bind]
      split
      · refine ⟨_, _, rfl, hcb, ?_⟩
        intro h
        rw [show d.hasCallback = c.hasCallback from hcb, h]; rfl
      · exact ⟨_, _, rfl, hcb, fun _ => rfl⟩
  unfold Collector8.feed
  by_cases hb : isSysex8Packet p = true
  · simp only [hb, Bool.not_true, Bool.false_eq_true, if_false, sysex8View]
    rw [assert_ok rfl]
    simp only [(C16_view_payload p hb).2.2.1, ok_bind, pure_eq_ok]
    split
    · obtain ⟨d, out, h1, h2, h3⟩ := pay { (if c.state ≠ .start then c.reset else c) with streamId := stream8 p } hb
      have hc : (if c.state ≠ .start then c.reset else c).hasCallback = c.hasCallback := by split <;> rfl
      exact ⟨d, out, h1, h2.trans hc, fun h => h3 (hc.trans h)⟩
    · split
      · exact ⟨_, _, rfl, rfl, fun _ => rfl⟩
      · split
        · exact ⟨_, _, rfl, rfl, fun _ => rfl⟩
        · exact pay c hb
  · simp only [hb, Bool.not_false, if_true]
    exact ⟨_, _, rfl, rfl, fun _ => rfl⟩

/-- C24: from no state whatsoever does a packet sequence cause a fault, and without a callback nothing is delivered. -/
theorem C24_never_faults (ps : List Packet) : ∀ c : Collector8,
    ∃ d out, c.feedAll ps = .ok (d, out) ∧ (c.hasCallback = false → out = []) := by
  induction ps with
  | nil => intro c; exact ⟨c, [], rfl, fun _ => rfl⟩
  | cons p ps ih =>
    intro c
    obtain ⟨d, out, h, hcb, hout⟩ := feed8_ok c p
    obtain ⟨d', out', h', hout'⟩ := ih d
    refine ⟨d', out ++ out', ?_, ?_⟩
    · unfold Collector8.feedAll
      rw [h, ok_bind]; dsimp only
      rw [h']; rfl
    · intro hc
      rw [hout hc, hout' (by rw [hcb, hc])]; rfl

/-! ## C20 -/

/-- A message `send_sysex8` can carry, with stream id and group. The lengths for which `send_sysex8` frames the packets
wrongly are excluded. -/
def Spec.Sendable8 (m : Sysex × Byte × Byte) : Prop :=
  (GenuineId m.1.manufacturerID ∨ m.1.manufacturerID = 0) ∧ ¬ BadLength8 m.1 ∧ m.2.2 < 16

instance (m : Sysex × Byte × Byte) : Decidable (Sendable8 m) := inferInstanceAs (Decidable (_ ∧ _))

theorem sent_framed8 (s : Sysex) (st g : Byte) (h : Sendable8 (s, st, g)) (ps : List Packet) (hs : sendSysex8 s st g = .ok ps) :
    (∀ p ∈ ps, IsSysex8 p ∧ stream8 p = st) ∧ Framed (ps.map formatCode) ∧
      ps.flatMap payload8 = idBytes8 s.manufacturerID ++ s.data := by
  obtain ⟨hid, hb, hg⟩ := h
  obtain ⟨ps1, h1, h2, _, h4⟩ := C19_send_sysex8_payload s st g hg hid
  obtain ⟨ps2, h5, h6⟩ := C19_send_sysex8_framed_partial s st g hg hid
  rw [hs] at h1 h5
  obtain rfl := Except.ok.inj h1
  obtain rfl := Except.ok.inj h5
  exact ⟨fun p hp => ⟨(h2 p hp).1, (h2 p hp).2.2.1⟩, h6.2 hb, h4⟩

/-- C20, partial: the packets of `send_sysex8` for any list of messages, possibly with other than sysex8 packets in
between, fed into a collector without size limit that was fed anything before, deliver exactly these messages with their
stream ids. What is missing: messages of the lengths for which the packets are not framed correctly (`BadLength8`), for
which the claim is false, see `C20_three_byte_id_lost` and `C20_one_byte_id_truncated`. -/
theorem C20_sysex8_round_trip_partial (hist : List Packet) (ms : List (Sysex × Byte × Byte)) (hms : ∀ m ∈ ms, Sendable8 m)
    (sent : List (List Packet)) (hs : ms.mapM (fun m => sendSysex8 m.1 m.2.1 m.2.2) = .ok sent)
    (qs : List Packet) (hq : qs.filter (fun p => decide (IsSysex8 p)) = sent.flatten) :
    ∃ c before c', ({} : Collector8).feedAll hist = .ok (c, before) ∧
      c.feedAll qs = .ok (c', ms.map fun m => (m.1, m.2.1)) := by
  obtain ⟨c, h1, hrel⟩ := feedAll8_rel hist rel8_fresh
  obtain ⟨c', h2, _⟩ := feedAll8_rel qs hrel
  refine ⟨c, _, c', h1, ?_⟩
  have hi : items8 qs = sent.flatten.map fun p => (formatCode p, stream8 p, payload8 p) := by unfold items8; rw [hq]
  rw [h2, hi]
  have hclean := absRun8_clean (items8 hist) (false, 0, []) (Or.inr rfl)
  generalize (absRun8 0 (false, 0, []) (items8 hist)).1 = st at hclean ⊢
  congr 2
  clear h2 hi hq
  induction ms generalizing sent st with
  | nil =>
    simp only [List.mapM_nil] at hs
    obtain rfl := Except.ok.inj hs
    rfl
  | cons m ms ih =>
    rw [List.mapM_cons] at hs
    cases hm : sendSysex8 m.1 m.2.1 m.2.2 with
    | error e => rw [hm] at hs; simp at hs
    | ok ps =>
      rw [hm, ok_bind] at hs
      cases hr : ms.mapM (fun m => sendSysex8 m.1 m.2.1 m.2.2) with
      | error e => rw [hr] at hs; simp at hs
      | ok rest =>
        rw [hr, ok_bind] at hs
        obtain rfl := Except.ok.inj hs
        have hsend := hms m (by simp)
        obtain ⟨f1, f2, f3⟩ := sent_framed8 m.1 m.2.1 m.2.2 hsend ps hm
        rw [List.flatten_cons, List.map_append, absRun8_append, absRun8_framed hclean m.2.1 (ps.map _)
          (by rw [map_fst_items8]; exact f2)
          (by
            intro it hit
            rw [List.mem_map] at hit
            obtain ⟨p, hp, rfl⟩ := hit
            exact (f1 p hp).2)
          (fits_zero _)]
        rw [List.map_append, ih (fun x hx => hms x (by simp [hx])) rest hr _ (Or.inr rfl)]
        rw [List.map_cons, flatMap_items8, f3]
        simp [message8_id _ hsend.1]

/-- C20: sending succeeds, and gives sysex8 packets only. -/
theorem C20_send_succeeds (m : Sysex × Byte × Byte) (h : Sendable8 m) :
    ∃ ps, sendSysex8 m.1 m.2.1 m.2.2 = .ok ps ∧ ps.filter (fun p => decide (IsSysex8 p)) = ps := by
  obtain ⟨ps, h1, _⟩ := C19_send_sysex8_payload m.1 m.2.1 m.2.2 h.2.2 h.1
  refine ⟨ps, h1, List.filter_eq_self.2 fun p hp => decide_eq_true ?_⟩
  exact ((sent_framed8 m.1 m.2.1 m.2.2 h ps h1).1 p hp).1

example : ∀ m ∈ ([(⟨0x7E0000, List.replicate 40 0xFF⟩, 3, 1), (⟨0x2109, []⟩, 15, 0), (⟨0, [1, 2]⟩, 1, 1)] :
    List (Sysex × Byte × Byte)), Sendable8 m := by decide

/-- What arrives of a message with its stream id: nothing or only the first eleven data bytes if the message is one of
those `send_sysex8` frames wrongly, and the message otherwise. -/
def Spec.received8 (s : Sysex) (st : Byte) : List (Sysex × Byte) :=
  if BadLength8 s then
    if s.data.length ≤ 11 then [] else [({ s with data := s.data.take 11 }, st)]
  else [(s, st)]

theorem absRun8_idle (its : List Item8) (h : ∀ it ∈ its, 2 ≤ it.1) : ∀ pl s, (absRun8 0 (false, s, pl) its).2 = [] := by
  induction its with
  | nil => intro pl s; rfl
  | cons x its ih =>
    intro pl s
    have hx : ¬ x.1 ≤ 1 := by have := h x (by simp); omega
    simp [absRun8, abs8, if_neg hx, ih fun y hy => h y (by simp [hy])]

theorem absRun8_received {st : St8} (hst : st.1 = true ∨ st.2.2 = []) (s : Sysex) (t g : Byte) (hg : g < 16)
    (hid : GenuineId s.manufacturerID ∨ s.manufacturerID = 0) {ps : List Packet} (hs : sendSysex8 s t g = .ok ps) :
    (absRun8 0 st (ps.map fun p => (formatCode p, stream8 p, payload8 p))).2.map (fun m => (message8 m.1, m.2)) =
      Spec.received8 s t := by
  obtain ⟨ps', h0, h1, h2, h3, h4, h5⟩ := sendSysex8_facts s t g hg hid
  rw [hs] at h0
  obtain rfl := Except.ok.inj h0
  have hbad := (threshold8 s hid).1
  unfold Spec.received8
  by_cases hb : BadLength8 s
  · rw [if_pos hb]
    by_cases hl : s.data.length ≤ 11
    · rw [if_pos hl]
      have ht : ¬ s.totalDataSize ≤ 13 := fun h => hbad.2 ⟨fun _ => hl, fun _ => h⟩ hb
      have := h4 hl
      rw [if_neg ht] at this
      obtain ⟨p, rfl⟩ : ∃ p, ps = [p] := List.length_eq_one_iff.1 (by simpa using congrArg List.length this)
      rw [List.map_singleton, List.singleton_inj] at this
      simp [absRun8, abs8, absAdd8, fits_zero, this]
    · rw [if_neg hl]
      have ht : s.totalDataSize ≤ 13 := by
        by_contra h
        exact hbad.2 ⟨fun h' => absurd h' h, fun h' => absurd h' hl⟩ hb
      obtain ⟨n, hn⟩ := h5 (by omega)
      rw [if_pos ht] at hn
      match ps, hn with
      | p :: qs, hn =>
        rw [List.map_cons, List.cons.injEq] at hn
        have hq : qs ≠ [] := by rintro rfl; simp at hn
        have hp13 : (payload8 p).length = 13 := h2 p (by
          rw [List.dropLast_cons_of_ne_nil hq]; simp)
        have hpay : payload8 p = idBytes8 s.manufacturerID ++ s.data.take 11 := by
          rw [List.flatMap_cons] at h3
          have hi := idBytes8_length s.manufacturerID
          have h := congrArg (List.take 13) h3
          rw [List.take_append_of_le_length (by omega), List.take_of_length_le (by omega), List.take_append, hi,
            List.take_of_length_le (by omega)] at h
          exact h
        have hidle : ∀ it ∈ qs.map fun p => (formatCode p, stream8 p, payload8 p), 2 ≤ it.1 := by
          intro it hit
          rw [List.mem_map] at hit
          obtain ⟨q, hq, rfl⟩ := hit
          have : formatCode q ∈ List.replicate n 2 ++ [3] := by
            rw [← hn.2]; exact List.mem_map_of_mem hq
          simp only [List.mem_append, List.mem_replicate, List.mem_singleton] at this
          show 2 ≤ formatCode q
          omega
        have hc : (if st.1 = true then [] else st.2.2) = ([] : List Byte) := by
          rcases hst with h | h
          · rw [if_pos h]
          · rw [h]; simp
        have hstream : stream8 p = t := (h1 p (by simp)).2.2.1
        simp only [List.map_cons, absRun8, abs8, hn.1, Nat.zero_le, if_true, hc, absAdd8, fits_zero, true_or,
          absRun8_idle _ hidle, List.nil_append, List.append_nil, List.map_nil, hpay, hstream, message8_id _ hid]
  · rw [if_neg hb, absRun8_framed hst t (ps.map _)
      (by
        rw [map_fst_items8]
        exact (sent_framed8 s t g ⟨hid, hb, hg⟩ ps hs).2.1)
      (by
        intro it hit
        rw [List.mem_map] at hit
        obtain ⟨p, hp, rfl⟩ := hit
        exact (h1 p hp).2.2.1)
      (fits_zero _)]
    simp only [List.map_singleton]
    rw [flatMap_items8, h3, message8_id _ hid]

/-- C20, exactly what arrives: the packets of `send_sysex8` for any list of messages, possibly with other than sysex8
packets in between, fed into a collector without size limit that was fed anything before, deliver every message with its
stream id, except those `send_sysex8` frames wrongly, which are lost or cut. -/
theorem C20_received (hist : List Packet) (ms : List (Sysex × Byte × Byte))
    (hms : ∀ m ∈ ms, (GenuineId m.1.manufacturerID ∨ m.1.manufacturerID = 0) ∧ m.2.2 < 16)
    (sent : List (List Packet)) (hs : ms.mapM (fun m => sendSysex8 m.1 m.2.1 m.2.2) = .ok sent)
    (qs : List Packet) (hq : qs.filter (fun p => decide (IsSysex8 p)) = sent.flatten) :
    ∃ c before c', ({} : Collector8).feedAll hist = .ok (c, before) ∧
      c.feedAll qs = .ok (c', ms.flatMap fun m => Spec.received8 m.1 m.2.1) := by
  obtain ⟨c, h1, hrel⟩ := feedAll8_rel hist rel8_fresh
  obtain ⟨c', h2, _⟩ := feedAll8_rel qs hrel
  refine ⟨c, _, c', h1, ?_⟩
  have hi : items8 qs = sent.flatten.map fun p => (formatCode p, stream8 p, payload8 p) := by unfold items8; rw [hq]
  rw [h2, hi]
  have hclean := absRun8_clean (items8 hist) (false, 0, []) (Or.inr rfl)
  generalize (absRun8 0 (false, 0, []) (items8 hist)).1 = st at hclean ⊢
  congr 2
  clear h2 hi hq
  induction ms generalizing sent st with
  | nil =>
    simp only [List.mapM_nil] at hs
    obtain rfl := Except.ok.inj hs
    rfl
  | cons m ms ih =>
    rw [List.mapM_cons] at hs
    cases hm : sendSysex8 m.1 m.2.1 m.2.2 with
    | error e => rw [hm] at hs; simp at hs
    | ok ps =>
      rw [hm, ok_bind] at hs
      cases hr : ms.mapM (fun m => sendSysex8 m.1 m.2.1 m.2.2) with
      | error e => rw [hr] at hs; simp at hs
      | ok rest =>
        rw [hr, ok_bind] at hs
        obtain rfl := Except.ok.inj hs
        have hsend := hms m (by simp)
        rw [List.flatten_cons, List.map_append, absRun8_append, List.map_append, List.flatMap_cons,
          absRun8_received hclean m.1 m.2.1 m.2.2 hsend.2 hsend.1 hm]
        congr 1
        exact ih (fun x hx => hms x (by simp [hx])) rest hr _ (absRun8_clean _ _ hclean)

/-- C20, exact condition: all messages arrive, each exactly once and in order, if and only if `send_sysex8` frames none
of them wrongly. -/
theorem C20_round_trip_iff (ms : List (Sysex × Byte × Byte)) :
    (ms.flatMap fun m => Spec.received8 m.1 m.2.1) = ms.map (fun m => (m.1, m.2.1)) ↔ ∀ m ∈ ms, ¬ BadLength8 m.1 := by
  have hlen : ∀ ms : List (Sysex × Byte × Byte), (ms.flatMap fun m => Spec.received8 m.1 m.2.1).length ≤ ms.length := by
    intro ms
    induction ms with
    | nil => simp
    | cons m ms ih =>
      have : (Spec.received8 m.1 m.2.1).length ≤ 1 := by
        unfold Spec.received8; split
        · split <;> simp
        · simp
      simp only [List.flatMap_cons, List.length_append, List.length_cons]
      omega
  induction ms with
  | nil => simp
  | cons m ms ih =>
    rw [List.forall_mem_cons, List.flatMap_cons, List.map_cons]
    refine Iff.trans ?_ (and_congr_right fun _ => ih)
    unfold Spec.received8
    by_cases hb : BadLength8 m.1
    · rw [if_pos hb]
      simp only [hb, not_true_eq_false, false_and, iff_false]
      split
      · intro h
        have h1 := congrArg List.length h
        have h2 := hlen ms
        unfold Spec.received8 at h2
        simp only [List.nil_append, List.length_cons, List.length_map] at h1
        omega
      · rename_i hl
        intro h
        rw [List.singleton_append, List.cons.injEq] at h
        have h1 := congrArg (fun x : Sysex × Byte => x.1.data.length) h.1
        simp only [List.length_take] at h1
        omega
    · rw [if_neg hb]
      simp [hb, Spec.received8]

example : let ms : List (Sysex × Byte × Byte) := [(⟨0x2109, List.replicate 11 1⟩, 7, 0), (⟨0x410000, List.replicate 12 2⟩, 8, 1),
      (⟨0x410000, [0xFF]⟩, 9, 2)]
    (∀ m ∈ ms, (GenuineId m.1.manufacturerID ∨ m.1.manufacturerID = 0) ∧ m.2.2 < 16) ∧
      (ms.flatMap fun m => Spec.received8 m.1 m.2.1) = [(⟨0x410000, List.replicate 11 2⟩, 8), (⟨0x410000, [0xFF]⟩, 9)] := by
  decide

/-- C20 is false: a message with three byte manufacturer id and eleven data bytes is lost. -/
theorem C20_three_byte_id_lost :
    ∃ ps c, sendSysex8 ⟨0x002109, [1, 2, 3, 4, 5, 6, 7, 8, 9, 10, 11]⟩ 0 0 = .ok ps ∧
      ({} : Collector8).feedAll ps = .ok (c, []) := ⟨_, _, rfl, rfl⟩

/-- C20 is false: a message with one byte manufacturer id and twelve data bytes loses its last byte. -/
theorem C20_one_byte_id_truncated :
    ∃ ps c, sendSysex8 ⟨0x410000, [1, 2, 3, 4, 5, 6, 7, 8, 9, 10, 11, 12]⟩ 5 0 = .ok ps ∧
      ({} : Collector8).feedAll ps = .ok (c, [(⟨0x410000, [1, 2, 3, 4, 5, 6, 7, 8, 9, 10, 11]⟩, 5)]) := ⟨_, _, rfl, rfl⟩

/-! ## C22, C23 -/

/-- C22 for 8 bit sysex, partial like `C22_size_limit_partial`. -/
theorem C22_size_limit8_partial (hist ps : List Packet) (n : Nat) (hn : n ≠ 0) (c : Collector8) (before : List (Sysex × Byte))
    (hc : ({} : Collector8).feedAll hist = .ok (c, before)) (hcap : c.capacity ≤ n) :
    ∃ c' out, (c.setMaxSize n).feedAll ps = .ok (c', out) ∧ (∀ m ∈ out, m.1.data.length ≤ n) ∧ c'.capacity ≤ n := by
  obtain ⟨d, h1, hrel⟩ := feedAll8_rel hist rel8_fresh
  rw [h1] at hc
  obtain ⟨rfl, _⟩ := Prod.mk.inj (Except.ok.inj hc)
  obtain ⟨c', h2, hr2⟩ := feedAll8_rel ps (rel8_limit hrel hn hcap)
  refine ⟨c', _, h2, ?_, ?_⟩
  · intro m hm
    rw [List.mem_map] at hm
    obtain ⟨x, hx, rfl⟩ := hm
    exact absRun8_limit hn _ _ x hx
  · rcases hr2.cap with h | h
    · exact absurd h hn
    · exact h

example : ({} : Collector8).feedAll [] = .ok ({}, []) ∧ ({} : Collector8).capacity ≤ 1 := ⟨rfl, by decide⟩

/-- C22 for 8 bit sysex is false: a limit of 1 set after a message has been collected has no effect. -/
theorem C22_limit8_set_late : ∃ c before c', ({} : Collector8).feedAll [⟨0x50030000, 0x7E000000, 0, 0⟩] = .ok (c, before) ∧
    (c.setMaxSize 1).feedAll [⟨0x50060000, 0x7E010203, 0, 0⟩] = .ok (c', [(⟨0x7E0000, [1, 2, 3]⟩, 0)]) :=
  ⟨_, _, _, rfl, rfl⟩

/-- Orphaned packets. -/
theorem absRun8_orphans (lim : Nat) (l : List Item8) (hl : ∀ x ∈ l, 2 ≤ x.1) (hne : l ≠ []) :
    ∀ s pl, absRun8 lim (false, s, pl) l = ((false, 0, []), []) := by
  induction l with
  | nil => exact absurd rfl hne
  | cons x l ih =>
    intro s pl
    have hx : ¬ x.1 ≤ 1 := by have := hl x (by simp); omega
    simp only [absRun8, abs8, if_neg hx]
    by_cases h : l = []
    · subst h; simp [absRun8]
    · simp [ih (fun y hy => hl y (by simp [hy])) h]

/-- A message that is too long already without its last packet leaves nothing behind. -/
theorem absRun8_dropped {lim : Nat} (h0 : lim ≠ 0) (s : Byte) : ∀ (n : Nat) (its : List Item8) (pl : List Byte),
    its.map Prod.fst = List.replicate n 2 ++ [3] → (∀ it ∈ its, it.2.1 = s) → (message8 pl).data.length ≤ lim →
    lim + 2 < (pl ++ its.dropLast.flatMap fun it => it.2.2).length →
    absRun8 lim (true, s, pl) its = ((false, 0, []), []) := by
  intro n
  induction n with
  | zero =>
    intro its pl hi hs hm hf
    match its, hi with
    | [(3, t, e)], _ =>
      have hm' := (message8_length pl).2
      simp at hf; omega
  | succ n ih =>
    intro its pl hi hs hm hf
    rw [List.replicate_succ, List.cons_append] at hi
    match its, hi with
    | (c, t, e) :: its, hi =>
      simp only [List.map_cons, List.cons.injEq] at hi
      obtain ⟨rfl, hi⟩ := hi
      have ht : t = s := hs (2, t, e) (by simp)
      subst ht
      have hne : its ≠ [] := by rintro rfl; simp at hi
      by_cases hfit : fits lim ((message8 pl).data.length + e.length)
      · have hm2 : (message8 (pl ++ e)).data.length ≤ lim :=
          absRun8_limit h0 [(3, t, e)] (true, t, pl) (pl ++ e, t) (by simp [absRun8, abs8, absAdd8, hfit])
        have hr := ih its (pl ++ e) hi (fun it h => hs it (by simp [h])) hm2 (by
          rw [List.dropLast_cons_of_ne_nil hne, List.flatMap_cons] at hf
          simpa [List.append_assoc] using hf)
        simp only [absRun8, abs8, absAdd8]
        simp [hfit, hr]
      · have ho := absRun8_orphans lim its (by
          intro x hx
          have := List.mem_map_of_mem (f := Prod.fst) hx
          rw [hi] at this
          simp at this
          omega) hne t pl
        simp only [absRun8, abs8, absAdd8]
        simp [hfit, ho]

theorem absRun8_dropped_framed {lim : Nat} (h0 : lim ≠ 0) (s : Byte) (its : List Item8) (st : St8)
    (hi : Framed (its.map Prod.fst)) (hs : ∀ it ∈ its, it.2.1 = s)
    (hf : lim + 2 < (its.dropLast.flatMap fun it => it.2.2).length) :
    absRun8 lim st its = ((false, 0, []), []) := by
  rcases hi with hi | ⟨n, hi⟩
  · match its, hi with
    | [(0, t, d)], _ => simp at hf
  · match its, hi with
    | (c, t, d) :: its, hi =>
      simp only [List.map_cons, List.cons.injEq] at hi
      obtain ⟨rfl, hi⟩ := hi
      have ht : t = s := hs (1, t, d) (by simp)
      subst ht
      have hne : its ≠ [] := by rintro rfl; simp at hi
      rw [List.dropLast_cons_of_ne_nil hne, List.flatMap_cons] at hf
      simp only [absRun8, abs8, absAdd8]
      simp only [Nat.le_refl, if_true]
      generalize (if st.1 = true then [] else st.2.2) = pl
      by_cases hfit : fits lim ((message8 pl).data.length + d.length)
      · have hm2 : (message8 (pl ++ d)).data.length ≤ lim :=
          absRun8_limit h0 [(0, t, d)] (false, t, pl) (pl ++ d, t) (by simp [absRun8, abs8, absAdd8, hfit])
        have hr := absRun8_dropped h0 t n its (pl ++ d) hi (fun it h => hs it (by simp [h])) hm2 (by simp at hf ⊢; omega)
        simp [hfit, hr]
      · have ho := absRun8_orphans lim its (by
          intro x hx
          have := List.mem_map_of_mem (f := Prod.fst) hx
          rw [hi] at this
          simp at this
          omega) hne t pl
        simp [hfit, ho]

/-- C23 for 8 bit sysex, partial like `C23_dropped_then_exact_partial`; a manufacturer id has two bytes here. -/
theorem C23_dropped_then_exact8_partial (n : Nat) (hn : n ≠ 0) (hist ps qs : List Packet) (s t : Byte)
    (hps : ∀ p ∈ ps, IsSysex8 p ∧ stream8 p = s) (hpf : Framed (ps.map formatCode))
    (hlong : n + 2 < (ps.dropLast.flatMap payload8).length)
    (hqs : ∀ p ∈ qs, IsSysex8 p ∧ stream8 p = t) (hqf : Framed (qs.map formatCode))
    (hfit : (qs.flatMap payload8).length ≤ n) :
    ∃ c before c', (({} : Collector8).setMaxSize n).feedAll hist = .ok (c, before) ∧
      c.feedAll (ps ++ qs) = .ok (c', [(message8 (qs.flatMap payload8), t)]) := by
  obtain ⟨c, h1, hrel⟩ := feedAll8_rel hist (rel8_limit rel8_fresh hn (Nat.zero_le n))
  obtain ⟨c', h2, _⟩ := feedAll8_rel (ps ++ qs) hrel
  refine ⟨c, _, c', h1, ?_⟩
  have hst : ∀ (u : Byte) (ps : List Packet), (∀ p ∈ ps, IsSysex8 p ∧ stream8 p = u) →
      ∀ it ∈ ps.map fun p => (formatCode p, stream8 p, payload8 p), it.2.1 = u := by
    intro u ps h it hit
    rw [List.mem_map] at hit
    obtain ⟨p, hp, rfl⟩ := hit
    exact (h p hp).2
  rw [h2, items8_append, items8_all fun p hp => (hps p hp).1, items8_all fun p hp => (hqs p hp).1, absRun8_append,
    absRun8_dropped_framed hn s (ps.map _) _ (by rw [map_fst_items8]; exact hpf) (hst s ps hps)
      (by rw [← List.map_dropLast, flatMap_items8]; exact hlong),
    absRun8_framed (Or.inr rfl) t (qs.map _) (by rw [map_fst_items8]; exact hqf) (hst t qs hqs)
      (Or.inr (by rw [flatMap_items8]; exact hfit)), flatMap_items8]
  rfl

example : let ps : List Packet := [⟨0x501E0700, 0x7E010203, 0x04050607, 0x08090A0B⟩, ⟨0x50330701, 0x02000000, 0, 0⟩]
    (∀ p ∈ ps, IsSysex8 p ∧ stream8 p = 7) ∧ ps.map formatCode = [1, 3] ∧
    10 + 2 < (ps.dropLast.flatMap payload8).length := by decide

/-- C23 for 8 bit sysex: after `reset()` nothing is left of the packets fed before. -/
theorem C23_reset8_then_exact (n : Nat) (hn : n ≠ 0) (hist qs : List Packet) (s : Byte)
    (hqs : ∀ p ∈ qs, IsSysex8 p ∧ stream8 p = s) (hqf : Framed (qs.map formatCode))
    (hfit : (qs.flatMap payload8).length ≤ n) :
    ∃ c before c', (({} : Collector8).setMaxSize n).feedAll hist = .ok (c, before) ∧
      c.reset.feedAll qs = .ok (c', [(message8 (qs.flatMap payload8), s)]) := by
  obtain ⟨c, h1, hrel⟩ := feedAll8_rel hist (rel8_limit rel8_fresh hn (Nat.zero_le n))
  obtain ⟨c', h2, _⟩ := feedAll8_rel qs (reset_rel8 hrel)
  refine ⟨c, _, c', h1, ?_⟩
  rw [h2, items8_all fun p hp => (hqs p hp).1,
    absRun8_framed (Or.inr rfl) s _ (by rw [map_fst_items8]; exact hqf)
      (by
        intro it hit
        rw [List.mem_map] at hit
        obtain ⟨p, hp, rfl⟩ := hit
        exact (hqs p hp).2)
      (Or.inr (by rw [flatMap_items8]; exact hfit)),
    flatMap_items8]
  rfl

example : let qs : List Packet := [⟨0x50140700, 0x7E010000, 0, 0⟩, ⟨0x503307FF, 0x80000000, 0, 0⟩]
    (∀ p ∈ qs, IsSysex8 p ∧ stream8 p = 7) ∧ qs.map formatCode = [1, 3] ∧ (qs.flatMap payload8).length ≤ 5 := by decide

/-- C23 for 8 bit sysex is false: with a limit of three bytes, a message that is dropped at its end packet leaves its
bytes behind. -/
theorem C23_dropped_message_leaks8 : ∃ c,
    (({} : Collector8).setMaxSize 3).feedAll [⟨0x50140700, 0x7E010000, 0, 0⟩, ⟨0x50340702, 0x03040000, 0, 0⟩,
      ⟨0x50030880, 0x02000000, 0, 0⟩] = .ok (c, [(⟨0x7E0000, [1, 0x80, 2]⟩, 8)]) := ⟨_, rfl⟩

end Midi
