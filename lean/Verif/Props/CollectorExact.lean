import Verif.Props.CollectorLimit
import Verif.Props.Packet
import Verif.Spec.CollectorHistory

/-!
C21, C22, C24: exactly which messages are delivered by any history of calls on a collector.
-/

namespace Midi

open Spec

theorem ensureCapacity_exact {cap lim size n : Nat} (hs : size ≤ cap) (hn : n ≤ 13) :
    ensureCapacity cap lim size n = (grown lim cap (size + n), room lim cap (size + n)) := by
  unfold ensureCapacity grown room vecReserve
  by_cases h : size + n > cap
  · rw [if_pos h, if_neg (show ¬ size + n ≤ cap by omega)]
    by_cases hl : lim > 0
    · have h0 : lim ≠ 0 := by omega
      simp only [hl, decide_true, if_true, Bool.true_and, decide_eq_true_eq, h0, if_false, false_or]
      have e : min (max 128 (2 * cap)) lim = min lim (max 128 (2 * cap)) := Nat.min_comm _ _
      rw [e]
      by_cases h2 : size + n > max cap (min lim (max 128 (2 * cap)))
      · rw [if_pos h2]
        congr 1
        symm
        rw [decide_eq_false_iff_not]
        omega
      · rw [if_neg h2]
        congr 1
        symm
        rw [decide_eq_true_eq]
        omega
    · have h0 : lim = 0 := by omega
      subst h0
      simp
      omega
  · rw [if_neg h, if_pos (show size + n ≤ cap by omega)]
    congr 1
    symm
    rw [decide_eq_true_eq]
    omega

theorem room_grown {lim cap size n : Nat} (hs : size ≤ cap) (hn : n ≤ 13) (h : room lim cap (size + n) = true) :
    size + n ≤ grown lim cap (size + n) := by
  unfold room at h
  rw [decide_eq_true_eq] at h
  unfold grown
  split
  · assumption
  · split <;> omega

theorem grown_le {lim cap need : Nat} : cap ≤ grown lim cap need := by
  unfold grown
  split
  · omega
  · split <;> omega

/-! ## 7 bit sysex -/

/-- The collector in a state of the reference machine. -/
def conc7 (s : Held7) : Collector7 :=
  { sysex := (parse7 s.held).1, idRead := (parse7 s.held).2, capacity := s.storage, maxSize := s.limit,
    state := if s.running then 0x20 else 0x10, hasCallback := s.callback }

/-- What is held fits into the storage. -/
def Good7 (s : Held7) : Prop := (message7 s.held).data.length ≤ s.storage

theorem good7_cleared (s : Held7) : Good7 s.cleared := Nat.zero_le _

theorem conc7_reset (s : Held7) (t : Collector7) (h1 : t.capacity = s.storage) (h2 : t.maxSize = s.limit)
    (h3 : t.hasCallback = s.callback) : t.reset = conc7 s.cleared := by
  cases t
  cases h1
  cases h2
  cases h3
  rfl

theorem add7_exact (s : Held7) (hs : Good7 s) (p : Packet) (hp : IsSysex7 p) :
    (conc7 s).feedPayload p =
      .ok (conc7 (s.add (decide (formatCode p = 0 ∨ formatCode p = 3)) (payload7 p)).1,
        (s.add (decide (formatCode p = 0 ∨ formatCode p = 3)) (payload7 p)).2.map message7) ∧
    Good7 (s.add (decide (formatCode p = 0 ∨ formatCode p = 3)) (payload7 p)).1 := by
  have hlen : (payload7 p).length = sysex7PayloadSize p := by rw [payload7_eq_range']; simp
  have hn : sysex7PayloadSize p ≤ 6 := (C15_view_payload p ((C15_is_sysex7_packet_iff p).2 hp)).1
  have hdata : (conc7 s).sysex.data = (message7 s.held).data := by
    rw [← parse7_message]; rfl
  have hcode : (sysex7ViewStatus p = 0x00 ∨ sysex7ViewStatus p = 0x30) ↔ (formatCode p = 0 ∨ formatCode p = 3) := by
    rw [(code_iff p hp).1, (code_iff p hp).2.2.2]
  unfold Good7 at hs
  unfold Collector7.feedPayload Held7.add
  dsimp only
  rw [show (conc7 s).capacity = s.storage from rfl, show (conc7 s).maxSize = s.limit from rfl, hdata, hlen,
    ensureCapacity_exact hs (by omega)]
  dsimp only
  have hrg := @room_grown s.limit s.storage (message7 s.held).data.length (sysex7PayloadSize p) hs (by omega)
  have hge := @grown_le s.limit s.storage ((message7 s.held).data.length + sysex7PayloadSize p)
  generalize grown s.limit s.storage ((message7 s.held).data.length + sysex7PayloadSize p) = g at hrg hge ⊢
  cases hr : room s.limit s.storage ((message7 s.held).data.length + sysex7PayloadSize p)
  · refine ⟨?_, le_trans hs hge⟩
    simp only [Bool.not_false, if_true, Bool.false_eq_true, if_false, pure_eq_ok, List.map_nil]
    rfl
  · have hg := hrg hr
    simp only [Bool.not_true, Bool.false_eq_true, if_false, if_true]
    rw [collectLoop7_eq p _ 0 _ (by omega) (by show (conc7 s).sysex.data.length + _ ≤ g; rw [hdata]; exact hg)]
    simp only [ok_bind]
    have hfold : ((List.range' 0 (sysex7PayloadSize p)).map fun i => p.byteAt (2 + i)).foldl coll7
        ((conc7 s).sysex, (conc7 s).idRead) = parse7 (s.held ++ payload7 p) := by
      rw [← payload7_eq_range', parse7, List.foldl_append]; rfl
    rw [hfold]
    have hsz : (message7 (s.held ++ payload7 p)).data.length ≤ g := by
      have := coll7_foldl_length (payload7 p) (parse7 s.held)
      rw [parse7, ← List.foldl_append] at this
      have e1 := parse7_message (s.held ++ payload7 p)
      have e2 := parse7_message s.held
      rw [parse7] at e1 e2
      rw [e1, e2, hlen] at this
      omega
    by_cases hd : formatCode p = 0 ∨ formatCode p = 3
    · rw [if_pos (hcode.2 hd)]
      simp only [hd, decide_true, if_true]
      refine ⟨?_, good7_cleared _⟩
      rw [pure_eq_ok]
      congr 2
      show (if s.callback = true then [(parse7 (s.held ++ payload7 p)).1] else []) = _
      rw [parse7_message]
      cases s.callback <;> rfl
    · rw [if_neg fun x => hd (hcode.1 x)]
      simp only [hd, decide_false, Bool.false_eq_true, if_false]
      exact ⟨rfl, hsz⟩

theorem packet7_exact (s : Held7) (hs : Good7 s) (p : Packet) (hp : IsSysex7 p) :
    (conc7 s).feed p = .ok (conc7 (s.packet (formatCode p) (payload7 p)).1, (s.packet (formatCode p) (payload7 p)).2.map message7) ∧
    Good7 (s.packet (formatCode p) (payload7 p)).1 := by
  have hb : isSysex7Packet p = true := (C15_is_sysex7_packet_iff p).2 hp
  have h3 : formatCode p ≤ 3 := hp.2.1
  obtain ⟨c0, c1, c2, c3⟩ := code_iff p hp
  unfold Collector7.feed sysex7View Held7.packet
  rw [assert_ok hb]
  simp only [hb, Bool.not_true, Bool.false_eq_true, if_false, ok_bind, pure_eq_ok]
  by_cases hlow : formatCode p = 0 ∨ formatCode p = 1
  · rw [if_pos (show sysex7ViewStatus p = 0x00 ∨ sysex7ViewStatus p = 0x10 by rw [c0, c1]; exact hlow), if_pos hlow]
    have e : decide (formatCode p = 0 ∨ formatCode p = 3) = decide (formatCode p = 0) := by
      rw [decide_eq_decide]; omega
    cases hr : s.running
    · rw [if_neg (by simp [conc7, hr])]
      have := add7_exact s hs p hp
      rw [e] at this
      exact this
    · rw [if_pos (by simp [conc7, hr])]
      rw [conc7_reset s (conc7 s) rfl rfl rfl]
      have := add7_exact s.cleared (good7_cleared s) p hp
      rw [e] at this
      exact this
  · rw [if_neg (show ¬ (sysex7ViewStatus p = 0x00 ∨ sysex7ViewStatus p = 0x10) by rw [c0, c1]; exact hlow), if_neg hlow]
    have e : decide (formatCode p = 0 ∨ formatCode p = 3) = decide (formatCode p = 3) := by
      rw [decide_eq_decide]; omega
    cases hr : s.running
    · rw [if_pos (by simp [conc7, hr])]
      rw [conc7_reset s (conc7 s) rfl rfl rfl]
      exact ⟨rfl, good7_cleared s⟩
    · rw [if_neg (by simp [conc7, hr])]
      have := add7_exact s hs p hp
      rw [e] at this
      exact this

theorem packets7_exact (ps : List Packet) : ∀ (s : Held7), Good7 s →
    (conc7 s).feedAll ps = .ok (conc7 (s.packets (items7 ps)).1, (s.packets (items7 ps)).2.map message7) ∧
    Good7 (s.packets (items7 ps)).1 := by
  induction ps with
  | nil => intro s h; exact ⟨rfl, h⟩
  | cons p ps ih =>
    intro s h
    unfold Collector7.feedAll
    by_cases hp : IsSysex7 p
    · obtain ⟨e, h'⟩ := packet7_exact s h p hp
      obtain ⟨e', h''⟩ := ih _ h'
      rw [items7_cons_pos ps hp]
      refine ⟨?_, h''⟩
      rw [e, ok_bind]
      dsimp only
      rw [e']
      simp [Held7.packets, pure_eq_ok]
    · have hb : isSysex7Packet p = false := by
        rw [← Bool.not_eq_true, C15_is_sysex7_packet_iff]; exact hp
      obtain ⟨e', h''⟩ := ih _ h
      rw [items7_cons_neg ps hp]
      refine ⟨?_, h''⟩
      unfold Collector7.feed
      simp only [hb, Bool.not_false, if_true, pure_eq_ok, ok_bind]
      rw [e']
      rfl

theorem history7_exact (ops : List CollectorOp) : ∀ (s : Held7), Good7 s →
    (conc7 s).run ops = .ok (conc7 (s.history ops).1, (s.history ops).2.map message7) ∧ Good7 (s.history ops).1 := by
  induction ops with
  | nil => intro s h; exact ⟨rfl, h⟩
  | cons op ops ih =>
    intro s h
    cases op with
    | feed ps =>
      obtain ⟨e, h'⟩ := packets7_exact ps s h
      obtain ⟨e2, h2⟩ := ih _ h'
      refine ⟨?_, h2⟩
      rw [Collector7.run, e, ok_bind]
      dsimp only
      rw [e2]
      simp [Held7.history, pure_eq_ok]
    | setMaxSize n =>
      obtain ⟨e2, h2⟩ := ih { s with limit := n, storage := max s.storage n } (le_trans h (Nat.le_max_left _ _))
      refine ⟨?_, h2⟩
      rw [Collector7.run, Held7.history, ← e2]
      congr 1
      unfold Collector7.setMaxSize
      by_cases hn : n = 0
      · subst hn; simp [conc7]
      · rw [if_pos hn]; rfl
    | setCallback b => exact ih { s with callback := b } h
    | reset =>
      rw [Collector7.run, Held7.history, conc7_reset s (conc7 s) rfl rfl rfl]
      exact ih _ (good7_cleared s)

/-- C21, C22: the messages delivered by any history of calls on a new collector are exactly those of the reference machine. -/
theorem C22_history_exactly (ops : List CollectorOp) :
    ∃ c, ({} : Collector7).run ops = .ok (c, ((({} : Held7).history ops).2).map message7) :=
  ⟨_, (history7_exact ops {} (Nat.le_refl _)).1⟩

-- a limit set late lets a message pass that is longer than the limit; the same limit set first does not
example : (({} : Held7).history [.feed [⟨0x30017E00, 0, 0, 0⟩], .setMaxSize 1,
    .feed [⟨0x30167E01, 0x02030405, 0, 0⟩, ⟨0x30320607, 0, 0, 0⟩]]).2 = [[0x7E], [0x7E, 1, 2, 3, 4, 5, 6, 7]] := by decide +kernel
example : (({} : Held7).history [.setMaxSize 1, .feed [⟨0x30017E00, 0, 0, 0⟩],
    .feed [⟨0x30167E01, 0x02030405, 0, 0⟩, ⟨0x30320607, 0, 0, 0⟩]]).2 = [[0x7E]] := by decide +kernel

/-- While the effective limit does not change, the machine is the one with a fixed limit. -/
theorem packets7_limited {n e : Nat} (hn : n ≠ 0) (l : List (Nat × List Byte)) (hl : ∀ x ∈ l, x.1 ≤ 3) : ∀ (s : Held7),
    s.limit = n → s.callback = true → max s.storage n = e → (e ≤ 16384 ∨ e = n) →
    (s.packets l).2 = limited e s.running s.held l := by
  have hclear : ∀ s : Held7, max s.storage n = e → (e ≤ 16384 ∨ e = n) → max s.cleared.storage n = e := by
    intro s h1 h2
    show max (if s.storage > 16384 then 0 else s.storage) n = e
    split <;> omega
  have hgrow : ∀ st need, max st n = e → max (grown n st need) n = e := by
    intro st need h
    unfold grown
    rw [if_neg hn]
    split <;> omega
  have hroom : ∀ st need, max st n = e → (room n st need = true ↔ need ≤ e) := by
    intro st need h
    unfold room
    rw [decide_eq_true_eq]
    omega
  induction l with
  | nil => intro s _ _ _ _; rfl
  | cons x l ih =>
    obtain ⟨f, d⟩ := x
    have hf : f ≤ 3 := hl _ (List.mem_cons_self ..)
    have ih' := ih fun x hx => hl x (List.mem_cons_of_mem _ hx)
    have hadd : ∀ (s : Held7) (b : Bool), s.limit = n → s.callback = true → max s.storage n = e → (e ≤ 16384 ∨ e = n) →
        (s.add b d).2 ++ ((s.add b d).1.packets l).2 =
          if (message7 s.held).data.length + d.length ≤ e then
            if b = true then (s.held ++ d) :: limited e false [] l else limited e true (s.held ++ d) l
          else limited e false s.held l := by
      intro s b h1 h2 h3 h4
      unfold Held7.add
      dsimp only
      have hg := hgrow s.storage ((message7 s.held).data.length + d.length) h3
      have hr := hroom s.storage ((message7 s.held).data.length + d.length) h3
      rw [h1]
      by_cases hc : (message7 s.held).data.length + d.length ≤ e
      · rw [if_pos hc, if_pos (hr.2 hc)]
        cases b
        · simp only [Bool.false_eq_true, if_false]
          exact ih' _ rfl h2 hg h4
        · simp only [if_true, h2]
          have := ih' (Held7.cleared { s with limit := n, storage := grown n s.storage ((message7 s.held).data.length + d.length) })
            rfl h2 (hclear _ hg h4) h4
          rw [h2] at this
          rw [this]
          rfl
      · rw [if_neg hc, if_neg fun h => hc (hr.1 h)]
        exact ih' _ rfl h2 hg h4
    intro s h1 h2 h3 h4
    show (s.packet f d).2 ++ ((s.packet f d).1.packets l).2 = _
    rw [limited]
    unfold Held7.packet
    by_cases hlow : f = 0 ∨ f = 1
    · rw [if_pos hlow, if_neg (show ¬ (f ≥ 2 ∧ s.running = false) by omega)]
      have hb : (f = 0 ∨ f = 3) ↔ decide (f = 0) = true := by rw [decide_eq_true_eq]; omega
      have hle : f ≤ 1 := by omega
      cases hrun : s.running
      · simp only [Bool.false_eq_true, if_false, and_false, hb]
        exact hadd s _ h1 h2 h3 h4
      · simp only [if_true, hb, hle, and_self]
        exact hadd s.cleared _ h1 h2 (hclear s h3 h4) h4
    · rw [if_neg hlow]
      have hb : (f = 0 ∨ f = 3) ↔ decide (f = 3) = true := by rw [decide_eq_true_eq]; omega
      have hle : ¬ f ≤ 1 := by omega
      have hge : f ≥ 2 := by omega
      cases hrun : s.running
      · simp only [Bool.false_eq_true, if_false, hge, and_self, if_true]
        exact ih' _ h1 h2 (hclear s h3 h4) h4
      · rw [if_neg (show ¬ (f ≥ 2 ∧ true = false) by simp)]
        simp only [if_true, hb, hle, false_and, if_false]
        exact hadd s _ h1 h2 h3 h4

/-- C22: a limit set after any history of calls acts exactly like a fixed limit of `max storage n`, where `storage` is what the
history left allocated, as long as that is not more than the limit, or not more than 16384 bytes (otherwise it is given back
later). -/
theorem C22_late_limit_exactly (ops : List CollectorOp) (n : Nat) (hn : n ≠ 0) (ps : List Packet) (s : Held7)
    (hs : (({} : Held7).history ops).1 = s) (hcb : s.callback = true) (hst : s.storage ≤ max n 16384) :
    ∃ c before c', ({} : Collector7).run ops = .ok (c, before) ∧ c.capacity = s.storage ∧
      (c.setMaxSize n).feedAll ps = .ok (c', (limited (max s.storage n) s.running s.held (items7 ps)).map message7) := by
  obtain ⟨h, hg⟩ := history7_exact ops {} (Nat.le_refl _)
  rw [hs] at h hg
  have h2 : (conc7 s).setMaxSize n = conc7 { s with limit := n, storage := max s.storage n } := by
    unfold Collector7.setMaxSize
    rw [if_pos hn]; rfl
  have h3 := (packets7_exact ps { s with limit := n, storage := max s.storage n } (le_trans hg (Nat.le_max_left _ _))).1
  rw [packets7_limited hn (items7 ps) (items7_codes ps) { s with limit := n, storage := max s.storage n } rfl hcb
    (show max (max s.storage n) n = max s.storage n by omega) (by omega), ← h2] at h3
  exact ⟨conc7 s, _, _, h, rfl, h3⟩

-- one short message is enough for storage of 128 bytes, so that a limit of 1 acts as a limit of 128
example : (({} : Held7).history [.feed [⟨0x30017E00, 0, 0, 0⟩]]).1 = { storage := 128 } := by decide +kernel

/-! ## 8 bit sysex -/

/-- The collector in a state of the reference machine. -/
def conc8 (s : Held8) : Collector8 :=
  { sysex := (parse8 s.held).1, idState := (parse8 s.held).2, capacity := s.storage, maxSize := s.limit,
    state := if s.running then .cont else .start, streamId := s.stream, hasCallback := s.callback }

/-- What is held fits into the storage. -/
def Good8 (s : Held8) : Prop := (message8 s.held).data.length ≤ s.storage

theorem good8_cleared (s : Held8) : Good8 s.cleared := Nat.zero_le _

theorem conc8_reset (s : Held8) (t : Collector8) (h1 : t.capacity = s.storage) (h2 : t.maxSize = s.limit)
    (h3 : t.hasCallback = s.callback) : t.reset = conc8 s.cleared := by
  cases t
  cases h1
  cases h2
  cases h3
  rfl

theorem add8_exact (s : Held8) (hs : Good8 s) (p : Packet) (hp : IsSysex8 p) :
    (conc8 s).feedPayload p =
      .ok (conc8 (s.add (decide (formatCode p = 0 ∨ formatCode p = 3)) (payload8 p)).1,
        (s.add (decide (formatCode p = 0 ∨ formatCode p = 3)) (payload8 p)).2.map fun m => (message8 m.1, m.2)) ∧
    Good8 (s.add (decide (formatCode p = 0 ∨ formatCode p = 3)) (payload8 p)).1 := by
  have hlen : (payload8 p).length = sysex8PayloadSize p := by rw [payload8_eq_range' p hp]; simp
  have hn : sysex8PayloadSize p ≤ 13 := (C16_view_payload p ((C16_is_sysex8_packet_iff p).2 hp)).1
  have hdata : (conc8 s).sysex.data = (message8 s.held).data := by
    rw [← parse8_message]; rfl
  have hcode : (sysex8Format p = .complete ∨ sysex8Format p = .fin) ↔ (formatCode p = 0 ∨ formatCode p = 3) := by
    rw [(format8_iff p hp).1, (format8_iff p hp).2.2.2]
  unfold Good8 at hs
  unfold Collector8.feedPayload Held8.add
  dsimp only
  rw [show (conc8 s).capacity = s.storage from rfl, show (conc8 s).maxSize = s.limit from rfl, hdata, hlen,
    ensureCapacity_exact hs (by omega)]
  dsimp only
  have hrg := @room_grown s.limit s.storage (message8 s.held).data.length (sysex8PayloadSize p) hs (by omega)
  have hge := @grown_le s.limit s.storage ((message8 s.held).data.length + sysex8PayloadSize p)
  generalize grown s.limit s.storage ((message8 s.held).data.length + sysex8PayloadSize p) = g at hrg hge ⊢
  cases hr : room s.limit s.storage ((message8 s.held).data.length + sysex8PayloadSize p)
  · refine ⟨?_, le_trans hs hge⟩
    simp only [Bool.not_false, if_true, Bool.false_eq_true, if_false, pure_eq_ok, List.map_nil]
    rfl
  · have hg := hrg hr
    simp only [Bool.not_true, Bool.false_eq_true, if_false, if_true]
    rw [collectLoop8_eq p _ 0 _ (by omega) (by show (conc8 s).sysex.data.length + _ ≤ g; rw [hdata]; exact hg)]
    simp only [ok_bind]
    have hfold : ((List.range' 0 (sysex8PayloadSize p)).map fun i => p.byteAt (3 + i)).foldl coll8
        ((conc8 s).sysex, (conc8 s).idState) = parse8 (s.held ++ payload8 p) := by
      rw [← payload8_eq_range' p hp, parse8, List.foldl_append]; rfl
    rw [hfold]
    have hsz : (message8 (s.held ++ payload8 p)).data.length ≤ g := by
      have := coll8_foldl_length (payload8 p) (parse8 s.held)
      rw [parse8, ← List.foldl_append] at this
      have e1 := parse8_message (s.held ++ payload8 p)
      have e2 := parse8_message s.held
      rw [parse8] at e1 e2
      rw [e1, e2, hlen] at this
      omega
    by_cases hd : formatCode p = 0 ∨ formatCode p = 3
    · rw [if_pos (hcode.2 hd)]
      simp only [hd, decide_true, if_true]
      refine ⟨?_, good8_cleared _⟩
      rw [pure_eq_ok]
      congr 2
      show (if s.callback = true then [((parse8 (s.held ++ payload8 p)).1, s.stream)] else []) = _
      rw [parse8_message]
      cases s.callback <;> rfl
    · rw [if_neg fun x => hd (hcode.1 x)]
      simp only [hd, decide_false, Bool.false_eq_true, if_false]
      exact ⟨rfl, hsz⟩

theorem packet8_exact (s : Held8) (hs : Good8 s) (p : Packet) (hp : IsSysex8 p) :
    (conc8 s).feed p = .ok (conc8 (s.packet (formatCode p) (stream8 p) (payload8 p)).1,
      (s.packet (formatCode p) (stream8 p) (payload8 p)).2.map fun m => (message8 m.1, m.2)) ∧
    Good8 (s.packet (formatCode p) (stream8 p) (payload8 p)).1 := by
  have hb : isSysex8Packet p = true := (C16_is_sysex8_packet_iff p).2 hp
  have h3 : formatCode p ≤ 3 := hp.2.1
  obtain ⟨c0, c1, c2, c3⟩ := format8_iff p hp
  unfold Collector8.feed sysex8View Held8.packet
  rw [assert_ok hb]
  simp only [(C16_view_payload p hb).2.2.1, hb, Bool.not_true, Bool.false_eq_true, if_false, ok_bind, pure_eq_ok]
  by_cases hlow : formatCode p = 0 ∨ formatCode p = 1
  · rw [if_pos (show sysex8Format p = .complete ∨ sysex8Format p = .start by rw [c0, c1]; exact hlow), if_pos hlow]
    have e : decide (formatCode p = 0 ∨ formatCode p = 3) = decide (formatCode p = 0) := by
      rw [decide_eq_decide]; omega
    cases hr : s.running
    · have := add8_exact { s with stream := stream8 p } hs p hp
      rw [e] at this
      have hst : ¬ (conc8 s).state ≠ .start := by simp [conc8, hr]
      simp only [if_neg hst, Bool.false_eq_true, if_false]
      exact this
    · have := add8_exact { s.cleared with stream := stream8 p } (good8_cleared s) p hp
      rw [e] at this
      have hst : (conc8 s).state ≠ .start := by simp [conc8, hr]
      simp only [if_pos hst, if_true, conc8_reset s (conc8 s) rfl rfl rfl]
      exact this
  · rw [if_neg (show ¬ (sysex8Format p = .complete ∨ sysex8Format p = .start) by rw [c0, c1]; exact hlow), if_neg hlow]
    have e : decide (formatCode p = 0 ∨ formatCode p = 3) = decide (formatCode p = 3) := by
      rw [decide_eq_decide]; omega
    cases hr : s.running
    · rw [if_pos (by simp [conc8, hr])]
      rw [conc8_reset s (conc8 s) rfl rfl rfl]
      exact ⟨rfl, good8_cleared s⟩
    · rw [if_neg (by simp [conc8, hr])]
      simp only [if_true]
      by_cases hi : stream8 p = s.stream
      · rw [if_neg (fun h => h hi), if_pos hi]
        have := add8_exact s hs p hp
        rw [e] at this
        exact this
      · rw [if_pos (show stream8 p ≠ (conc8 s).streamId from hi), if_neg hi]
        exact ⟨rfl, hs⟩

theorem packets8_exact (ps : List Packet) : ∀ (s : Held8), Good8 s →
    (conc8 s).feedAll ps = .ok (conc8 (s.packets (items8 ps)).1, (s.packets (items8 ps)).2.map fun m => (message8 m.1, m.2)) ∧
    Good8 (s.packets (items8 ps)).1 := by
  induction ps with
  | nil => intro s h; exact ⟨rfl, h⟩
  | cons p ps ih =>
    intro s h
    unfold Collector8.feedAll
    by_cases hp : IsSysex8 p
    · obtain ⟨e, h'⟩ := packet8_exact s h p hp
      obtain ⟨e', h''⟩ := ih _ h'
      rw [items8_cons_pos ps hp]
      refine ⟨?_, h''⟩
      rw [e, ok_bind]
      dsimp only
      rw [e']
      simp [Held8.packets, pure_eq_ok]
    · have hb : isSysex8Packet p = false := by
        rw [← Bool.not_eq_true, C16_is_sysex8_packet_iff]; exact hp
      obtain ⟨e', h''⟩ := ih _ h
      rw [items8_cons_neg ps hp]
      refine ⟨?_, h''⟩
      unfold Collector8.feed
      simp only [hb, Bool.not_false, if_true, pure_eq_ok, ok_bind]
      rw [e']
      rfl

theorem history8_exact (ops : List CollectorOp) : ∀ (s : Held8), Good8 s →
    (conc8 s).run ops = .ok (conc8 (s.history ops).1, (s.history ops).2.map fun m => (message8 m.1, m.2)) ∧ Good8 (s.history ops).1 := by
  induction ops with
  | nil => intro s h; exact ⟨rfl, h⟩
  | cons op ops ih =>
    intro s h
    cases op with
    | feed ps =>
      obtain ⟨e, h'⟩ := packets8_exact ps s h
      obtain ⟨e2, h2⟩ := ih _ h'
      refine ⟨?_, h2⟩
      rw [Collector8.run, e, ok_bind]
      dsimp only
      rw [e2]
      simp [Held8.history, pure_eq_ok]
    | setMaxSize n =>
      obtain ⟨e2, h2⟩ := ih { s with limit := n, storage := max s.storage n } (le_trans h (Nat.le_max_left _ _))
      refine ⟨?_, h2⟩
      rw [Collector8.run, Held8.history, ← e2]
      congr 1
      unfold Collector8.setMaxSize
      by_cases hn : n = 0
      · subst hn; simp [conc8]
      · rw [if_pos hn]; rfl
    | setCallback b => exact ih { s with callback := b } h
    | reset =>
      rw [Collector8.run, Held8.history, conc8_reset s (conc8 s) rfl rfl rfl]
      exact ih _ (good8_cleared s)

/-- C24, C22: the messages delivered by any history of calls on a new collector are exactly those of the reference machine. -/
theorem C22_history_exactly8 (ops : List CollectorOp) :
    ∃ c, ({} : Collector8).run ops = .ok (c, ((({} : Held8).history ops).2).map fun m => (message8 m.1, m.2)) :=
  ⟨_, (history8_exact ops {} (Nat.le_refl _)).1⟩

example : (({} : Held8).history [.feed [⟨0x50030000, 0x7E000000, 0, 0⟩], .setMaxSize 1,
    .feed [⟨0x50060000, 0x7E010203, 0, 0⟩]]).2 = [([0, 0x7E], 0), ([0, 0x7E, 1, 2, 3], 0)] := by decide +kernel

/-- While the effective limit does not change, the machine is the one with a fixed limit. -/
theorem packets8_limited {n e : Nat} (hn : n ≠ 0) (l : List Item8) (hl : ∀ x ∈ l, x.1 ≤ 3) : ∀ (s : Held8),
    s.limit = n → s.callback = true → max s.storage n = e → (e ≤ 16384 ∨ e = n) →
    (s.packets l).2 = limited8 e s.running s.stream s.held l := by
  have hclear : ∀ s : Held8, max s.storage n = e → (e ≤ 16384 ∨ e = n) → max s.cleared.storage n = e := by
    intro s h1 h2
    show max (if s.storage > 16384 then 0 else s.storage) n = e
    split <;> omega
  have hgrow : ∀ st need, max st n = e → max (grown n st need) n = e := by
    intro st need h
    unfold grown
    rw [if_neg hn]
    split <;> omega
  have hroom : ∀ st need, max st n = e → (room n st need = true ↔ need ≤ e) := by
    intro st need h
    unfold room
    rw [decide_eq_true_eq]
    omega
  induction l with
  | nil => intro s _ _ _ _; rfl
  | cons x l ih =>
    obtain ⟨f, i, d⟩ := x
    have hf : f ≤ 3 := hl _ (List.mem_cons_self ..)
    have ih' := ih fun x hx => hl x (List.mem_cons_of_mem _ hx)
    have hadd : ∀ (s : Held8) (b : Bool), s.limit = n → s.callback = true → max s.storage n = e → (e ≤ 16384 ∨ e = n) →
        (s.add b d).2 ++ ((s.add b d).1.packets l).2 =
          if (message8 s.held).data.length + d.length ≤ e then
            if b = true then (s.held ++ d, s.stream) :: limited8 e false 0 [] l else limited8 e true s.stream (s.held ++ d) l
          else limited8 e false s.stream s.held l := by
      intro s b h1 h2 h3 h4
      unfold Held8.add
      dsimp only
      have hg := hgrow s.storage ((message8 s.held).data.length + d.length) h3
      have hr := hroom s.storage ((message8 s.held).data.length + d.length) h3
      rw [h1]
      by_cases hc : (message8 s.held).data.length + d.length ≤ e
      · rw [if_pos hc, if_pos (hr.2 hc)]
        cases b
        · simp only [Bool.false_eq_true, if_false]
          exact ih' _ rfl h2 hg h4
        · simp only [if_true, h2]
          have := ih' (Held8.cleared { s with limit := n, storage := grown n s.storage ((message8 s.held).data.length + d.length) })
            rfl h2 (hclear _ hg h4) h4
          rw [h2] at this
          rw [this]
          rfl
      · rw [if_neg hc, if_neg fun h => hc (hr.1 h)]
        exact ih' _ rfl h2 hg h4
    intro s h1 h2 h3 h4
    show (s.packet f i d).2 ++ ((s.packet f i d).1.packets l).2 = _
    rw [limited8]
    unfold Held8.packet
    by_cases hlow : f = 0 ∨ f = 1
    · rw [if_pos hlow, if_neg (show ¬ (f ≥ 2 ∧ s.running = false) by omega), if_neg (show ¬ (f ≥ 2 ∧ i ≠ s.stream) by omega)]
      have hb : (f = 0 ∨ f = 3) ↔ decide (f = 0) = true := by rw [decide_eq_true_eq]; omega
      have hle : f ≤ 1 := by omega
      cases hrun : s.running
      · simp only [Bool.false_eq_true, if_false, and_false, hb]
        exact hadd { s with stream := i } _ h1 h2 h3 h4
      · simp only [if_true, hb, hle, and_self]
        exact hadd { s.cleared with stream := i } _ h1 h2 (hclear s h3 h4) h4
    · rw [if_neg hlow]
      have hb : (f = 0 ∨ f = 3) ↔ decide (f = 3) = true := by rw [decide_eq_true_eq]; omega
      have hle : ¬ f ≤ 1 := by omega
      have hge : f ≥ 2 := by omega
      cases hrun : s.running
      · simp only [Bool.false_eq_true, if_false, hge, and_self, if_true]
        exact ih' _ h1 h2 (hclear s h3 h4) h4
      · rw [if_neg (show ¬ (f ≥ 2 ∧ true = false) by simp)]
        by_cases hi : i = s.stream
        · rw [if_neg (show ¬ (f ≥ 2 ∧ i ≠ s.stream) from fun h => h.2 hi)]
          simp only [if_true, hb, hle, false_and, if_false, hi]
          exact hadd s _ h1 h2 h3 h4
        · rw [if_pos (show f ≥ 2 ∧ i ≠ s.stream from ⟨hge, hi⟩)]
          simp only [if_true, hi, if_false]
          rw [List.nil_append, ih' s h1 h2 h3 h4, hrun]

/-- C22 for 8 bit sysex: a limit set after any history of calls acts exactly like a fixed limit of `max storage n`, where `storage` is what the
history left allocated, as long as that is not more than the limit, or not more than 16384 bytes (otherwise it is given back
later). -/
theorem C22_late_limit_exactly8 (ops : List CollectorOp) (n : Nat) (hn : n ≠ 0) (ps : List Packet) (s : Held8)
    (hs : (({} : Held8).history ops).1 = s) (hcb : s.callback = true) (hst : s.storage ≤ max n 16384) :
    ∃ c before c', ({} : Collector8).run ops = .ok (c, before) ∧ c.capacity = s.storage ∧
      (c.setMaxSize n).feedAll ps = .ok (c', (limited8 (max s.storage n) s.running s.stream s.held (items8 ps)).map fun m => (message8 m.1, m.2)) := by
  obtain ⟨h, hg⟩ := history8_exact ops {} (Nat.le_refl _)
  rw [hs] at h hg
  have h2 : (conc8 s).setMaxSize n = conc8 { s with limit := n, storage := max s.storage n } := by
    unfold Collector8.setMaxSize
    rw [if_pos hn]; rfl
  have h3 := (packets8_exact ps { s with limit := n, storage := max s.storage n } (le_trans hg (Nat.le_max_left _ _))).1
  rw [packets8_limited hn (items8 ps) (items8_codes ps) { s with limit := n, storage := max s.storage n } rfl hcb
    (show max (max s.storage n) n = max s.storage n by omega) (by omega), ← h2] at h3
  exact ⟨conc8 s, _, _, h, rfl, h3⟩

example : (({} : Held8).history [.feed [⟨0x50030000, 0x7E000000, 0, 0⟩]]).1 = { storage := 128 } := by decide +kernel

/-! ## Groups -/

/-- `p` and `q` are equal, except for their groups: the same type, and the same bytes after the first. -/
def SameExceptGroup (p q : Packet) : Prop := p.type = q.type ∧ ∀ b, 1 ≤ b → p.getByte b = q.getByte b

theorem items_same {p q : Packet} (h : SameExceptGroup p q) :
    (IsSysex7 p ↔ IsSysex7 q) ∧ (IsSysex8 p ↔ IsSysex8 q) ∧ formatCode p = formatCode q ∧
      (IsSysex7 p → payload7 p = payload7 q) ∧ (IsSysex8 p → payload8 p = payload8 q) ∧ stream8 p = stream8 q := by
  obtain ⟨ht, hg⟩ := h
  have hb : ∀ b, 1 ≤ b → b < 16 → p.byteAt b = q.byteAt b := by
    intro b h1 h2
    have := hg b h1
    rw [Packet.getByte_lt _ h2, Packet.getByte_lt _ h2] at this
    exact Except.ok.inj this
  have h0 : (p.byteAt 0).toNat / 16 = (q.byteAt 0).toNat / 16 := by
    have e : ∀ r : Packet, (r.byteAt 0).toNat / 16 = r.type.toNat := by
      intro r
      have h1 : r.type = r.byteAt 0 >>> 4 := by simp only [Packet.type, Packet.byteAt, Packet.word]; bits
      rw [h1, BitVec.toNat_ushiftRight, Nat.shiftRight_eq_div_pow]
    rw [e, e, ht]
  have h1 := hb 1 (by omega) (by omega)
  refine ⟨?_, ?_, ?_, fun hp => ?_, fun hp => ?_, hb 2 (by omega) (by omega)⟩
  · unfold IsSysex7; rw [h0, h1]
  · unfold IsSysex8; rw [h0, h1]
  · unfold formatCode; rw [h1]
  · have := hp.2.2
    unfold payload7; rw [← h1]
    exact List.map_congr_left fun i hi => hb _ (by omega) (by rw [List.mem_range] at hi; omega)
  · have := hp.2.2.2
    unfold payload8; rw [← h1]
    exact List.map_congr_left fun i hi => hb _ (by omega) (by rw [List.mem_range] at hi; omega)

/-- C21, C24: the collectors do not look at the group: packets that differ only in their groups lead to the same messages, and
nothing says on which group these came. Messages sent on several groups at the same time therefore need a collector for each
group, see `C21_groups_mixed`. -/
theorem C21_groups_ignored (l : List (Packet × Packet)) (h : ∀ x ∈ l, SameExceptGroup x.1 x.2) :
    (∃ c d out, ({} : Collector7).feedAll (l.map Prod.fst) = .ok (c, out) ∧ ({} : Collector7).feedAll (l.map Prod.snd) = .ok (d, out)) ∧
    ∃ c d out, ({} : Collector8).feedAll (l.map Prod.fst) = .ok (c, out) ∧ ({} : Collector8).feedAll (l.map Prod.snd) = .ok (d, out) := by
  have e7 : items7 (l.map Prod.fst) = items7 (l.map Prod.snd) := by
    induction l with
    | nil => rfl
    | cons x l ih =>
      obtain ⟨a, _, c, d, _, _⟩ := items_same (h x (List.mem_cons_self ..))
      have ih := ih fun y hy => h y (List.mem_cons_of_mem _ hy)
      by_cases hp : IsSysex7 x.1
      · rw [List.map_cons, List.map_cons, items7_cons_pos _ hp, items7_cons_pos _ (a.1 hp), c, d hp, ih]
      · rw [List.map_cons, List.map_cons, items7_cons_neg _ hp, items7_cons_neg _ (fun x => hp (a.2 x)), ih]
  have e8 : items8 (l.map Prod.fst) = items8 (l.map Prod.snd) := by
    clear e7
    induction l with
    | nil => rfl
    | cons x l ih =>
      obtain ⟨_, a, c, _, d, e⟩ := items_same (h x (List.mem_cons_self ..))
      have ih := ih fun y hy => h y (List.mem_cons_of_mem _ hy)
      by_cases hp : IsSysex8 x.1
      · rw [List.map_cons, List.map_cons, items8_cons_pos _ hp, items8_cons_pos _ (a.1 hp), c, d hp, e, ih]
      · rw [List.map_cons, List.map_cons, items8_cons_neg _ hp, items8_cons_neg _ (fun x => hp (a.2 x)), ih]
  constructor
  · obtain ⟨c, h1⟩ := C21_collector_decodes (l.map Prod.fst)
    obtain ⟨d, h2⟩ := C21_collector_decodes (l.map Prod.snd)
    rw [← e7] at h2
    exact ⟨c, d, _, h1, h2⟩
  · obtain ⟨c, h1⟩ := C24_collector_decodes (l.map Prod.fst)
    obtain ⟨d, h2⟩ := C24_collector_decodes (l.map Prod.snd)
    rw [← e8] at h2
    exact ⟨c, d, _, h1, h2⟩

-- every packet, moved to any group
example (p : Packet) (g : Byte) (h : g < 16) : ∃ q, p.setGroup g = .ok q ∧ q.group = g ∧ SameExceptGroup p q := by
  obtain ⟨q, h1, h2, h3, h4⟩ := (C02_set_group p g).1 h
  exact ⟨q, h1, h2, h3.symm, fun b hb => (h4 b hb).symm⟩

/-- C21: two messages sent at the same time on two groups are mixed up: the first is lost, and the second is delivered once, the
end packet on the other group finds no message. -/
theorem C21_groups_mixed : ∃ c, ({} : Collector7).feedAll
    [⟨0x30127E01, 0, 0, 0⟩, ⟨0x31127D02, 0, 0, 0⟩, ⟨0x30310300, 0, 0, 0⟩, ⟨0x31310400, 0, 0, 0⟩] =
      .ok (c, [⟨0x7D0000, [2, 3]⟩]) := ⟨_, rfl⟩

end Midi
